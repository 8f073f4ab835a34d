import Verif.Model.Metrics
import Verif.Model.Observation
/-
Model of waymax/visualization (viz.py, utils.py, color.py): which marks each plotting function puts on the figure.

A figure is the list of the `ax` calls made on it, one entry per polyline, marker or text. Idealised: coordinates are real numbers.
Not modelled here: batch indices (see `Verif.Model.BatchViz`), labels and legends, drawing order, transparency, and everything that
matplotlib does with the calls
(`init_fig_ax`, `img_from_fig`, `save_img_as_png`).
-/

namespace Waymax

/-- An RGB colour with components between 0 and 1. waymax/visualization/color.py:22-64 -/
abbrev Rgb := ℚ × ℚ × ℚ

/-- `COLOR_DICT`. waymax/visualization/color.py:58-64 -/
inductive AgentColor where
  | context | controlled | history | overlap
  deriving DecidableEq, Repr

/-- `COLOR_DICT`. waymax/visualization/color.py:58-64 -/
def AgentColor.rgb : AgentColor → Rgb
  | .context => (6/10, 6/10, 6/10)
  | .controlled => (0, 6/10, 8/10)
  | .history => (8/10, 8/10, 8/10)
  | .overlap => (1, 0, 0)

/-- `TRAFFIC_LIGHT_COLORS`. waymax/visualization/color.py:22-35 -/
def trafficLightColor : Int → Option Rgb
  | 0 => some (3/4, 3/4, 3/4)
  | 1 => some (1, 0, 0)
  | 2 => some (1, 1, 0)
  | 3 => some (0, 1, 0)
  | 4 => some (1, 0, 0)
  | 5 => some (1, 1, 0)
  | 6 => some (0, 1, 0)
  | 7 => some (1, 1, 0)
  | 8 => some (1, 1, 0)
  | _ => none

/-- `ROAD_GRAPH_COLORS`. waymax/visualization/color.py:37-55 -/
def roadGraphColor : Int → Option Rgb
  | 1 => some (230/255, 230/255, 230/255)
  | 2 => some (230/255, 230/255, 230/255)
  | 3 => some (230/255, 230/255, 230/255)
  | 6 => some (140/255, 230/255, 1)
  | 7 => some (89/255, 219/255, 1)
  | 8 => some (89/255, 219/255, 1)
  | 9 => some (241/255, 153/255, 1)
  | 10 => some (241/255, 153/255, 1)
  | 11 => some (120/255, 120/255, 120/255)
  | 12 => some (120/255, 120/255, 120/255)
  | 13 => some (120/255, 120/255, 120/255)
  | 15 => some (80/255, 80/255, 80/255)
  | 16 => some (80/255, 80/255, 80/255)
  | 17 => some (1, 0, 0)
  | 18 => some (200/255, 200/255, 200/255)
  | 19 => some (200/255, 200/255, 200/255)
  | _ => none

/-- `_RoadGraphShown`. waymax/visualization/viz.py:32 -/
def roadGraphShown : List Int := [1, 2, 3, 15, 16, 17, 18, 19]

/-- `_RoadGraphDefaultColor`. waymax/visualization/viz.py:33 -/
def roadGraphDefaultColor : Rgb := (9/10, 9/10, 9/10)

/-- One mark on the figure. Marks drawn in waymax/visualization/viz.py:36-242 -/
inductive Draw where
  /-- `ax.plot` of the outline of a box -/
  | outline (pts : List (ℝ × ℝ)) (color : Rgb)
  /-- `ax.plot` of the heading arrow of a box -/
  | arrow (pts : List (ℝ × ℝ)) (color : Rgb)
  /-- `ax.plot(.., 'o', ms=2)` of a box centre -/
  | center (p : ℝ × ℝ) (color : Rgb)
  /-- `ax.text` of an object index -/
  | label (p : ℝ × ℝ) (index : Nat)
  /-- `ax.plot(.., '.', ms=2)` of a road-graph point -/
  | roadPoint (p : ℝ × ℝ) (color : Rgb)
  /-- `ax.plot(.., marker='o', ms=4)` of a traffic light -/
  | light (p : ℝ × ℝ) (color : Rgb)
  /-- `ax.plot(.., 'co' or 'go', ms=5)` of a path point; the flag is the colour, cyan or green -/
  | pathPoint (p : ℝ × ℝ) (cyan : Bool)
  /-- `ax.text` of a metric name and value -/
  | metric (p : ℝ × ℝ) (name : String) (value : ℝ)

/-- A figure: its marks, and the limits `(x_min, x_max, y_min, y_max)` of `ax.axis`. waymax/visualization/viz.py:245-311 -/
structure Figure where
  marks : List Draw
  axis : ℝ × ℝ × ℝ × ℝ

/-- `VizConfig` without the pixel size. waymax/visualization/utils.py:32-43 -/
structure VizConfig where
  frontX : ℝ := 75
  backX : ℝ := 75
  frontY : ℝ := 75
  backY : ℝ := 75
  showAgentId : Bool := true
  centerAgentIdx : Int := -1

/-- Corners of the box as drawn: `tl, tr, br, bl, tl`. waymax/visualization/utils.py:153-178 -/
noncomputable def boxOutline (b : Box) : List (ℝ × ℝ) :=
  let c := Real.cos b.yaw
  let s := Real.sin b.yaw
  let u : ℝ × ℝ := (c, s)
  let ut : ℝ × ℝ := (s, -c)
  let tl := (b.x + b.length / 2 * u.1 - b.width / 2 * ut.1, b.y + b.length / 2 * u.2 - b.width / 2 * ut.2)
  let tr := (b.x + b.length / 2 * u.1 + b.width / 2 * ut.1, b.y + b.length / 2 * u.2 + b.width / 2 * ut.2)
  let br := (b.x - b.length / 2 * u.1 + b.width / 2 * ut.1, b.y - b.length / 2 * u.2 + b.width / 2 * ut.2)
  let bl := (b.x - b.length / 2 * u.1 - b.width / 2 * ut.1, b.y - b.length / 2 * u.2 - b.width / 2 * ut.2)
  [tl, tr, br, bl, tl]

/-- The heading arrow as drawn: `cl, cr, cf, cl`. waymax/visualization/utils.py:153-190 -/
noncomputable def boxArrow (b : Box) : List (ℝ × ℝ) :=
  let c := Real.cos b.yaw
  let s := Real.sin b.yaw
  let u : ℝ × ℝ := (c, s)
  let ut : ℝ × ℝ := (s, -c)
  let cl := (b.x - b.width / 2 * ut.1, b.y - b.width / 2 * ut.2)
  let cr := (b.x + b.width / 2 * ut.1, b.y + b.width / 2 * ut.2)
  let cf := (b.x + b.length / 2 * u.1, b.y + b.length / 2 * u.2)
  [cl, cr, cf, cl]

/-- `plot_numpy_bounding_boxes`; the shape checks hold by typing. waymax/visualization/utils.py:115-190 -/
noncomputable def plotNumpyBoundingBoxes (bs : List Box) (color : Rgb) (asCenterPts : Bool := false) : List Draw :=
  if asCenterPts then bs.map fun b => .center (b.x, b.y) color
  else (bs.map fun b => Draw.outline (boxOutline b) color) ++ bs.map fun b => Draw.arrow (boxArrow b) color

/-- Indexing a numpy axis of length `T` with an integer: negative indices count from the end, others must be in range.
Used at waymax/visualization/viz.py:143-169 -/
def npIndex (T : Nat) (i : Int) : Except Err (Fin T) :=
  if h : 0 ≤ i ∧ i < T then .ok ⟨i.toNat, by omega⟩
  else if h : i < 0 ∧ 0 ≤ i + T then .ok ⟨(i + T).toNat, by omega⟩
  else .error .indexError

/-- The cells of an `(n, T)` array in the order of a boolean-mask selection. Used at waymax/visualization/viz.py:54-95 -/
def cells (n T : Nat) : List (Fin n × Fin T) := (List.finRange n).flatMap fun i => (List.finRange T).map fun t => (i, t)

section
variable {n T : Nat}

/-- Boxes of other steps than `timeIdx` are drawn at a tenth of their size. waymax/visualization/viz.py:54-55 -/
noncomputable def shrunk (traj : Traj ℝ n T) (timeIdx : Int) (i : Fin n) (t : Fin T) : Box :=
  let b := (traj i t).box
  if (t : Int) ≠ timeIdx then { b with length := b.length / 10, width := b.width / 10 } else b

open Classical in
/-- `_plot_bounding_boxes`. Comparing the array of time indices with `None` raises a TypeError. An index out of range raises when
the overlaps are computed; the marks made before are lost with the exception. waymax/visualization/viz.py:36-95 -/
noncomputable def plotBoundingBoxes (traj : Traj ℝ n T) (timeIdx : Option Int) (isControlled : Fin n → Bool) :
    Except Err (List Draw) :=
  match timeIdx with
  | none => .error .typeError
  | some ti =>
    match npIndex T ti with
    | .error e => .error e
    | .ok cur =>
      let valid := fun i t => (traj i t).valid
      let box := shrunk traj ti
      let sel := fun (p : Fin n × Fin T → Bool) => ((cells n T).filter p).map fun c => box c.1 c.2
      let overlap := fun i : Fin n =>
        decide (∃ j, valid j cur = true ∧ computePairwiseOverlaps (fun k => box k cur) i j)
      .ok (plotNumpyBoundingBoxes (sel fun c => decide (ti ≤ c.2) && (isControlled c.1 && valid c.1 c.2))
            AgentColor.controlled.rgb ++
          plotNumpyBoundingBoxes (sel fun c => decide ((c.2 : Int) < ti) && valid c.1 c.2) AgentColor.history.rgb true ++
          plotNumpyBoundingBoxes (sel fun c => decide (ti ≤ c.2) && (!isControlled c.1 && valid c.1 c.2))
            AgentColor.context.rgb ++
          plotNumpyBoundingBoxes (((List.finRange n).filter fun i => overlap i && valid i cur).map fun i => box i cur)
            AgentColor.overlap.rgb)

/-- Index labels of the objects present at the step. waymax/visualization/viz.py:149-158 -/
noncomputable def plotLabels (traj : Traj ℝ n T) (cur : Fin T) : List Draw :=
  ((List.finRange n).filter fun i => (traj i cur).valid).map fun i => .label ((traj i cur).x - 2, (traj i cur).y + 2) i

/-- `time_idx = -1` stands for the last step. waymax/visualization/viz.py:143-145 -/
def lastStepIdx (T : Nat) (ti : Int) : Int := if ti = -1 then (T : Int) - 1 else ti

/-- `plot_trajectory`; `showIds` means that `indices` is `np.arange(num_objects)`. waymax/visualization/viz.py:110-169 -/
noncomputable def plotTrajectory (traj : Traj ℝ n T) (isControlled : Fin n → Bool) (timeIdx : Option Int) (showIds : Bool) :
    Except Err (List Draw) :=
  match timeIdx with
  | none => plotBoundingBoxes traj none isControlled
  | some ti0 =>
    let ti := lastStepIdx T ti0
    if ti ≥ T then .error .valueError else
    match npIndex T ti with
    | .error e => .error e
    | .ok cur =>
      match plotBoundingBoxes traj (some ti) isControlled with
      | .error e => .error e
      | .ok boxes => .ok ((if showIds then plotLabels traj cur else []) ++ boxes)

/-- `np.unique`: the distinct values in increasing order. Called at waymax/visualization/viz.py:193 -/
def npUnique (xs : List Int) : List Int := xs.dedup.mergeSort fun a b => decide (a ≤ b)

/-- `plot_roadgraph_points`; a missing road graph has no `shape`. waymax/visualization/viz.py:172-197 -/
def plotRoadgraphPoints (rg : Option (List (RgPoint ℝ))) : Except Err (List Draw) :=
  match rg with
  | none => .error .attributeError
  | some pts =>
    let kept := pts.filter fun p => p.valid
    .ok (((npUnique (kept.map fun p => p.type)).filter fun ty => roadGraphShown.contains ty).flatMap fun ty =>
      (kept.filter fun p => p.type == ty).map fun p =>
        Draw.roadPoint (p.x, p.y) ((roadGraphColor ty).getD roadGraphDefaultColor))

/-- `plot_traffic_light_signals_as_points` at an in-range step. waymax/visualization/viz.py:200-228 -/
def plotTrafficLights (tls : List (Fin T → TlState ℝ)) (t : Fin T) : Except Err (List Draw) :=
  ((tls.map fun l => l t).filter fun p => p.valid).mapM fun p =>
    match trafficLightColor p.state with
    | none => .error .keyError
    | some c => .ok (Draw.light (p.x, p.y) c)

/-- `_plot_path_points`; missing paths have no `shape`, a path without points has no first point.
waymax/visualization/viz.py:231-242 -/
def plotPathPoints (paths : Option (List (SdcPath ℝ))) : Except Err (List Draw) :=
  match paths with
  | none => .error .attributeError
  | some ps => do
    let marks ← ps.mapM fun path =>
      match path.points with
      | [] => .error .indexError
      | first :: _ =>
        if first.valid then
          .ok ((path.points.filter fun p => p.valid).map fun p => Draw.pathPoint (p.x, p.y) path.onRoute)
        else .ok []
    return marks.flatten

/-- The centre of the view: the first SDC, or `xy[0, :2]` of a single row, which has one axis too few.
waymax/visualization/viz.py:297-303, 372-378, 448-454 -/
def viewCenter (cfg : VizConfig) (md : Fin n → ObjMeta) (xy : Fin n → ℝ × ℝ) : Except Err (ℝ × ℝ) :=
  if cfg.centerAgentIdx = -1 then
    match (List.finRange n).filter fun i => (md i).isSdc with
    | [] => .error .indexError
    | i :: _ => .ok (xy i)
  else .error .indexError

/-- `ax.axis` around the centre. waymax/visualization/viz.py:304-309, 379-384, 455-460 -/
def viewAxis (cfg : VizConfig) (c : ℝ × ℝ) : ℝ × ℝ × ℝ × ℝ :=
  (c.1 - cfg.backX, c.1 + cfg.frontX, c.2 - cfg.backY, c.2 + cfg.frontY)

/-- `plot_simulator_state` of one scenario. waymax/visualization/viz.py:245-311 -/
noncomputable def plotSimulatorState (s : SimState ℝ n T) (useLogTraj : Bool := true) (cfg : VizConfig := {})
    (highlight : ObjectType := .SDC) : Except Err Figure := do
  let traj := if useLogTraj then s.logTrajectory else s.simTrajectory
  let isControlled ← getControlMask s.objectMetadata highlight
  let boxes ← plotTrajectory traj isControlled (some s.timestep) cfg.showAgentId
  let road ← plotRoadgraphPoints s.roadgraphPoints
  let cur ← npIndex T s.timestep
  let lights ← plotTrafficLights s.logTrafficLight cur
  let c ← viewCenter cfg s.objectMetadata fun i => ((traj i cur).x, (traj i cur).y)
  return { marks := boxes ++ road ++ lights, axis := viewAxis cfg c }

/-- `plot_observation` of one observer's row. waymax/visualization/viz.py:314-386 -/
noncomputable def plotObservation {K : Nat} (o : Obs n K) (cfg : VizConfig := {}) (highlight : ObjectType := .SDC) :
    Except Err Figure := do
  let timestep := (K : Int) - 1
  let isControlled ← getControlMask o.metadata highlight
  let boxes ← plotTrajectory o.trajectory isControlled (some timestep) cfg.showAgentId
  let road ← plotRoadgraphPoints (some o.roadgraph)
  let cur ← npIndex K timestep
  let lights ← plotTrafficLights o.trafficLights cur
  let c ← viewCenter cfg o.metadata fun i => ((o.trajectory i cur).x, (o.trajectory i cur).y)
  return { marks := boxes ++ road ++ lights, axis := viewAxis cfg c }

/-- `plot_single_agent_brax_timestep` of one scenario; the metrics are in dictionary order.
waymax/visualization/viz.py:389-473 -/
noncomputable def plotBraxTimestep (s : SimState ℝ n T) (metrics : List (String × MetricResult)) (useLogTraj : Bool := false)
    (cfg : VizConfig := {}) : Except Err Figure := do
  let traj := if useLogTraj then s.logTrajectory else s.simTrajectory
  let boxes ← plotTrajectory traj (fun i => (s.objectMetadata i).isSdc) (some s.timestep) cfg.showAgentId
  let road ← plotRoadgraphPoints s.roadgraphPoints
  let cur ← npIndex T s.timestep
  let lights ← plotTrafficLights s.logTrafficLight cur
  let paths ← plotPathPoints s.sdcPaths
  let c ← viewCenter cfg s.objectMetadata fun i => ((traj i cur).x, (traj i cur).y)
  let texts := (metrics.filter fun m => m.2.valid).map fun m =>
    Draw.metric (c.1 - cfg.backX, c.2 - cfg.backY + 10) m.1 m.2.value
  return { marks := boxes ++ road ++ lights ++ paths ++ texts, axis := viewAxis cfg c }

/-- `center_at_xy`. waymax/visualization/utils.py:69-79 -/
def centerAtXy (cfg : VizConfig) (xy : ℝ × ℝ) : ℝ × ℝ × ℝ × ℝ :=
  (xy.1 - cfg.backX, xy.1 + cfg.frontX, xy.2 - cfg.backY, xy.2 + cfg.frontY)

end

/-- Hue, saturation and value of the colours of `get_n_colors`; the conversion to RGB is `colorsys`, not modelled.
waymax/visualization/utils.py:102-112 -/
def nColorsHsv (numColor : Nat) (maxHue saturation lightness : ℚ) : List (ℚ × ℚ × ℚ) :=
  (List.range numColor).map fun x => (x * maxHue / numColor, saturation, lightness)

end Waymax
