import Verif.Spec.Womd
import Verif.Props.Delta
import Verif.Props.Metrics
import Verif.Props.Roadgraph
import Verif.Props.Bicycle
/-
C58, C59, C89 - C91: writing a simulator state as a WOMD example and reading examples (real arithmetic).

Time steps of a read example: 0 ... H-1 are the past, H is the current step, H+1 ... H+F are the future.
-/

namespace Waymax

open Real

/-! ### Aggregation -/

theorem aggregate_get {β : Type} {H F : Nat} (p : Fin H → β) (c : Fin 1 → β) (f : Fin F → β) (t : Fin (H + 1 + F)) :
    (List.ofFn p ++ [c 0] ++ List.ofFn f)[t.val]? = some (aggregate p c f t) := by
  have hlen : (List.ofFn p ++ [c 0]).length = H + 1 := by simp
  have ht := t.isLt
  unfold aggregate Fin.append Fin.addCases
  rcases Nat.lt_or_ge t.val (H + 1) with h1 | h1
  · rw [List.getElem?_append_left (by omega)]
    simp only [h1, dif_pos]
    rcases Nat.lt_or_ge t.val H with h2 | h2
    · rw [List.getElem?_append_left (by simpa using h2), List.getElem?_ofFn]
      simp [h2]
      rfl
    · rw [List.getElem?_append_right (by simpa using h2)]
      have : t.val = H := by omega
      simp [this]
      congr 1
      exact Subsingleton.elim _ _
  · rw [List.getElem?_append_right (by omega), hlen, List.getElem?_ofFn]
    have h3 : t.val - (H + 1) < F := by omega
    simp only [h3, dif_pos]
    rw [dif_neg (by omega)]
    simp [Fin.subNat]

theorem aggregate_comp {β γ : Type} {H F : Nat} (g : β → γ) (p : Fin H → β) (c : Fin 1 → β) (f : Fin F → β) (t : Fin (H + 1 + F)) :
    aggregate (fun t => g (p t)) (fun t => g (c t)) (fun t => g (f t)) t = g (aggregate p c f t) := by
  apply Option.some.inj
  rw [← aggregate_get]
  have := congrArg (Option.map g) (aggregate_get p c f t)
  rw [Option.map_some] at this
  rw [← this, ← List.getElem?_map]
  simp [List.map_ofFn, Function.comp_def]

theorem aggregate_list {β : Type} {H F : Nat} (p : Fin H → β) (c : Fin 1 → β) (f : Fin F → β) :
    List.ofFn p ++ [c 0] ++ List.ofFn f = List.ofFn (aggregate p c f) := by
  apply List.ext_getElem?
  intro t
  rcases Nat.lt_or_ge t (H + 1 + F) with h | h
  · rw [aggregate_get p c f ⟨t, h⟩, List.getElem?_ofFn]; simp [h]
  · rw [List.getElem?_eq_none (by simp; omega), List.getElem?_eq_none (by simp; omega)]

/-! ### C90: reading an example -/

section
variable {n L H F : Nat}

theorem loadWomd_eq (e : WomdExample n L H F) : ∃ s, loadWomd e = .ok s ∧
    s.logTrajectory = (fun i => trajectoryFromWomd (e.objects i)) ∧
    (∀ i t, s.simTrajectory i t = if t.val = 0 then s.logTrajectory i t else zeroPt) ∧
    s.logTrafficLight = List.ofFn (fun l t => tlFromWomd (e.lights t l)) ∧
    s.objectMetadata = (fun i => metaFromWomd (e.metadata i)) ∧ s.timestep = 0 ∧ s.sdcPaths = none ∧
    s.roadgraphPoints = some (e.roadgraph.map rgFromWomd) := by
  unfold loadWomd fromWomd updateTrajBySlice
  have h1 : 1 ≤ H + 1 + F := by omega
  simp only [h1, dif_pos, if_true, bind, Except.bind, pure, Except.pure]
  refine ⟨_, rfl, rfl, fun i t => ?_, rfl, rfl, rfl, rfl, rfl⟩
  have h0 : startIdx (H + 1 + F) 1 0 = 0 := by rw [startIdx_of_inRange] <;> simp; omega
  simp only [dynUpdateSlice, dynSlice, Option.getD, h0]
  by_cases ht : t.val = 0
  · simp [ht]
    congr 1
    exact Fin.ext ht.symm
  · simp [ht]

theorem load_log {e : WomdExample n L H F} {s} (h : loadWomd e = .ok s) : s.logTrajectory = fun i => trajectoryFromWomd (e.objects i) := by
  obtain ⟨s', h1, h2, -⟩ := loadWomd_eq e
  rw [h1] at h; cases h; exact h2

theorem sum_filter_list {β : Type} (p : β → Bool) (f : β → ℝ) (l : List β) :
    ((l.filter p).map f).sum = (l.map fun b => if p b then f b else 0).sum := by
  induction l with
  | nil => rfl
  | cons b l ih => cases hb : p b <;> simp [hb, ih]

theorem averageSize_eq {T : Nat} (size : WomdPt → ℝ) (ws : Fin T → WomdPt) (t : Fin T) :
    maskedMean (fun t => size (ws t)) (fun t => boolOfInt (ws t).valid) (-1) t = averageSize size (List.ofFn ws) := by
  have h : ∀ f : WomdPt → ℝ, (∑ i, if boolOfInt (ws i).valid = true then f (ws i) else 0) =
      (((List.ofFn ws).filter fun w => decide (w.valid ≠ 0)).map f).sum := by
    intro f
    rw [sum_filter_list, List.map_ofFn, List.sum_ofFn]
    rfl
  have h1 : (∑ i, if boolOfInt (ws i).valid = true then (1 : ℝ) else 0) =
      ((List.ofFn ws).filter fun w => decide (w.valid ≠ 0)).length := by
    rw [h fun _ => 1]; simp
  unfold maskedMean averageSize
  simp only [h1, h size, Nat.cast_eq_zero, List.length_eq_zero_iff]

/-- Reading any example: the log of every object is the list of its records in the order of time. -/
theorem C90_log (e : WomdExample n L H F) : ∃ s, loadWomd e = .ok s ∧
    ∀ i (t : Fin (H + 1 + F)), ∃ w, (e.records i)[t.val]? = some w ∧ ReadsAs w (s.logTrajectory i t) := by
  obtain ⟨s, h1, h2, -⟩ := loadWomd_eq e
  refine ⟨s, h1, fun i t => ⟨_, aggregate_get _ _ _ t, ?_⟩⟩
  rw [h2]
  exact ⟨⟨rfl, rfl, rfl⟩, ⟨rfl, rfl⟩, ⟨wrap_agrees _, (C21_wrap_range _).1, (C21_wrap_range _).2⟩, rfl, by
    simp only [trajectoryFromWomd, boolOfInt, WomdExample.objects]; exact decide_eq_true_iff⟩

/-- The size of an object is one number per object: the average over its valid records. -/
theorem C90_sizes (e : WomdExample n L H F) : ∃ s, loadWomd e = .ok s ∧ ∀ i t,
    (s.logTrajectory i t).length = averageSize WomdPt.length (e.records i) ∧
    (s.logTrajectory i t).width = averageSize WomdPt.width (e.records i) ∧
    (s.logTrajectory i t).height = averageSize WomdPt.height (e.records i) := by
  obtain ⟨s, h1, h2, -⟩ := loadWomd_eq e
  refine ⟨s, h1, fun i t => ?_⟩
  rw [h2, WomdExample.records, aggregate_list]
  exact ⟨averageSize_eq WomdPt.length (aggregate (e.past i) (e.current i) (e.future i)) t,
    averageSize_eq WomdPt.width (aggregate (e.past i) (e.current i) (e.future i)) t,
    averageSize_eq WomdPt.height (aggregate (e.past i) (e.current i) (e.future i)) t⟩

/-- The simulation starts at step 0: the first simulated step is the first logged one, later steps are not valid. -/
theorem C90_start (e : WomdExample n L H F) : ∃ s, loadWomd e = .ok s ∧ s.timestep = 0 ∧
    (∀ i, s.simTrajectory i ⟨0, by omega⟩ = s.logTrajectory i ⟨0, by omega⟩) ∧
    ∀ i t, t.val ≠ 0 → (s.simTrajectory i t).valid = false := by
  obtain ⟨s, h1, -, h3, -, -, h6, -⟩ := loadWomd_eq e
  exact ⟨s, h1, h6, fun i => by rw [h3]; rfl, fun i t ht => by rw [h3, if_neg ht]; rfl⟩

/-- Traffic lights: one per column of the example, each with its records in the order of time. -/
theorem C90_lights (e : WomdExample n L H F) : ∃ s, loadWomd e = .ok s ∧ ∃ hL : s.logTrafficLight.length = L,
    ∀ (l : Fin L) (t : Fin (H + 1 + F)), ∃ w, (e.lightRecords l)[t.val]? = some w ∧ TlReadsAs w (s.logTrafficLight[l] t) := by
  obtain ⟨s, h1, -, -, h4, -⟩ := loadWomd_eq e
  have hL : s.logTrafficLight.length = L := by rw [h4]; simp
  refine ⟨s, h1, hL, fun l t => ?_⟩
  have hg := aggregate_get (fun t => e.tlPast t l) (fun t => e.tlCurrent t l) (fun t => e.tlFuture t l) t
  refine ⟨_, hg, ?_⟩
  have hag : aggregate (fun t => e.tlPast t l) (fun t => e.tlCurrent t l) (fun t => e.tlFuture t l) t = e.lights t l := by
    exact aggregate_comp (fun x : Fin L → WomdTl => x l) _ _ _ t
  have hs : s.logTrafficLight[l] t = tlFromWomd (e.lights t l) := by
    show s.logTrafficLight[l.val] t = _
    rw [List.getElem_of_eq h4]
    simp
  rw [hs, hag]
  exact ⟨⟨rfl, rfl, rfl⟩, ⟨rfl, rfl⟩, by simp only [tlFromWomd, boolOfInt]; exact decide_eq_true_iff⟩

/-- Metadata and road graph. An object is valid unless its "track to predict" entry is -1. -/
theorem C90_rest (e : WomdExample n L H F) : ∃ s, loadWomd e = .ok s ∧ s.sdcPaths = none ∧
    (∀ i, let m := s.objectMetadata i; let w := e.metadata i
      m.id = w.id ∧ m.objectType = w.type ∧ (m.isSdc = true ↔ w.isSdc = 1) ∧ (m.isModeled = true ↔ w.tracksToPredict = 1) ∧
      (m.isValid = true ↔ w.tracksToPredict ≠ -1) ∧ (m.objectsOfInterest = true ↔ w.objectsOfInterest = 1) ∧ m.isControlled = false) ∧
    ∃ rg, s.roadgraphPoints = some rg ∧ rg.length = e.roadgraph.length ∧ ∀ k (h : k < rg.length) (h' : k < e.roadgraph.length),
      let p := rg[k]; let w := e.roadgraph[k]
      (p.x, p.y, p.z) = (w.x, w.y, w.z) ∧ (p.dirX, p.dirY, p.dirZ) = (w.dirX, w.dirY, w.dirZ) ∧ p.type = w.type ∧ p.id = w.id ∧
      (p.valid = true ↔ w.valid ≠ 0) := by
  obtain ⟨s, h1, -, -, -, h5, -, h7, h8⟩ := loadWomd_eq e
  refine ⟨s, h1, h7, fun i => ?_, _, h8, by simp, fun k h h' => ?_⟩
  · rw [h5]; simp [metaFromWomd]
  · simp [rgFromWomd, boolOfInt]

end

/-! ### Writing: what is accepted -/

section
variable {n T : Nat} [NeZero T]

theorem toWomd_ok {spec : WomdSpec} {v : Bool} {s : SimState ℝ n T} {e} (h : toWomd spec v s = .ok e) :
    ∃ (hH : spec.history ≤ T) (hT : 1 ≤ T) (rg : List (RgPoint ℝ)), s.roadgraphPoints = some rg ∧ e.roadgraph = rg.map womdOfRg ∧
      (v = true → s.timestep = spec.history) ∧ 0 < n ∧ spec.Fits s ∧
      e.past = (fun i t => womdOfPt (dynSlice (s.simTrajectory i) (s.timestep - spec.history) spec.history hH t)) ∧
      e.current = (fun i t => womdOfPt (dynSlice (s.simTrajectory i) s.timestep 1 hT t)) ∧
      e.future = (fun _ _ => womdUnknownPt) ∧
      e.tlPast = (fun t l => womdOfTl (dynSlice (s.logTrafficLight.get l) (s.timestep - spec.history) spec.history hH t)) ∧
      e.tlCurrent = (fun t l => womdOfTl (dynSlice (s.logTrafficLight.get l) s.timestep 1 hT t)) ∧
      e.tlFuture = (fun _ _ => womdUnknownTl) ∧
      e.metadata = fun i => womdOfMeta (s.objectMetadata i) := by
  unfold toWomd at h
  split at h
  · simp at h
  · rename_i hv
    split at h
    · rename_i hh
      split at h
      · simp at h
      · rename_i rg hrg
        split at h
        · rename_i hn
          split at h
          · simp at h
          · rename_i hp
            split at h
            · rename_i hf
              have := Except.ok.inj h
              subst this
              refine ⟨hh.1, hh.2, rg, hrg, rfl, fun hvt => ?_, hn, ⟨hf.1, hf.2.1, by simpa using hp, rg, hrg, hf.2.2⟩, rfl, rfl, rfl, rfl, rfl, rfl, rfl⟩
              simp [hvt] at hv
              exact hv
            · simp at h
        · simp at h
    · simp at h

/-- Which states can be written: the axis is long enough for the history, the description fits the state, there is at least one
object and, with `validate`, the time step is exactly the length of the history. -/
theorem C89_accepts_iff (spec : WomdSpec) (validate : Bool) (s : SimState ℝ n T) :
    (∃ e, toWomd spec validate s = .ok e) ↔
      spec.history ≤ T ∧ 0 < n ∧ spec.Fits s ∧ (validate = true → s.timestep = spec.history) := by
  constructor
  · rintro ⟨e, h⟩
    obtain ⟨hH, -, rg, -, -, hv, hn, hf, -⟩ := toWomd_ok h
    exact ⟨hH, hn, hf, hv⟩
  · rintro ⟨hH, hn, ⟨h1, h2, h3, rg, h4, h5⟩, hv⟩
    have hT : 1 ≤ T := Nat.one_le_iff_ne_zero.mpr (NeZero.ne T)
    unfold toWomd
    rw [if_neg (by cases validate <;> simp_all), dif_pos ⟨hH, hT⟩]
    split
    · rename_i h; rw [h4] at h; simp at h
    · rename_i rg' h
      rw [h4] at h
      cases h
      rw [dif_pos hn, if_neg (by simp [h3]), if_pos ⟨h1, h2, h5⟩]
      exact ⟨_, rfl⟩

/-! ### C89: the exported window -/

omit [NeZero T] in
theorem dynSlice_at {β : Type} (x : Fin T → β) {start : Int} {K : Nat} (hK : K ≤ T) (h0 : 0 ≤ start) (h1 : start + K ≤ T)
    (u : Fin K) (τ : Fin T) (hτ : (τ : Int) = start + u) : dynSlice x start K hK u = x τ := by
  unfold dynSlice
  congr 1
  apply Fin.ext
  simp only [startIdx_of_inRange h0 h1]
  omega

omit [NeZero T] in
theorem dynSlice_wrapped {β : Type} (x : Fin T → β) {start : Int} {K : Nat} (hK : K ≤ T) (h0 : start < 0) (h1 : -(K : Int) ≤ start)
    (u : Fin K) (τ : Fin T) (hτ : τ.val = T - K + u.val) : dynSlice x start K hK u = x τ := by
  unfold dynSlice
  congr 1
  apply Fin.ext
  simp only [startIdx, h0, if_true]
  omega

/-- The record of a trajectory point reads as that point. -/
theorem readsAs_written {p : Pt ℝ} {q : Pt ℝ} (h : ReadsAs (womdOfPt p) q) : SameButSize p q :=
  ⟨h.position, h.velocity, h.direction.1, h.time, by
    have := h.valid
    simp only [womdOfPt, intOfBool] at this
    cases hp : p.valid <;> cases hq : q.valid <;> simp_all⟩

theorem tlReadsAs_written {p q : TlState ℝ} (h : TlReadsAs (womdOfTl p) q) : q = p := by
  obtain ⟨⟨h1, h2, h3⟩, ⟨h4, h5⟩, h6⟩ := h
  cases p; cases q
  simp only [womdOfTl, intOfBool] at h1 h2 h3 h4 h5 h6
  subst h1 h2 h3 h4 h5
  rename_i a b
  cases a <;> cases b <;> simp_all

section
variable {spec : WomdSpec} {s : SimState ℝ n T} {s' : SimState ℝ n (spec.history + 1 + spec.future)}

/-- Records of the exported example, for a state with enough history. -/
theorem written_records {v : Bool} {e} (h : toWomd spec v s = .ok e) (h0 : (spec.history : Int) ≤ s.timestep) (h1 : s.timestep < T)
    (i : Fin n) {k : Nat} (hk : k ≤ spec.history) (τ : Fin T) (hτ : (τ : Int) = s.timestep - spec.history + k) :
    (e.records i)[k]? = some (womdOfPt (s.simTrajectory i τ)) := by
  obtain ⟨hH, hT, rg, -, -, -, -, -, hp, hc, -⟩ := toWomd_ok h
  have hlt : k < spec.history + 1 + spec.future := by omega
  have hg := aggregate_get (e.past i) (e.current i) (e.future i) ⟨k, hlt⟩
  unfold WomdExample.records
  rcases Nat.lt_or_ge k spec.history with hk' | hk'
  · rw [List.append_assoc, List.getElem?_append_left (by simpa using hk'), List.getElem?_ofFn, dif_pos hk', hp]
    simp only
    rw [dynSlice_at _ _ (by omega) (by omega) ⟨k, hk'⟩ τ (by simpa using hτ)]
  · have : k = spec.history := by omega
    rw [List.append_assoc, List.getElem?_append_right (by simpa using hk'), hc]
    simp only [this, List.length_ofFn, Nat.sub_self, List.cons_append, List.getElem?_cons_zero]
    rw [dynSlice_at _ _ (by omega) (by omega) 0 τ (by simp; omega)]

theorem written_light_records {v : Bool} {e} (h : toWomd spec v s = .ok e) (h0 : (spec.history : Int) ≤ s.timestep) (h1 : s.timestep < T)
    (l : Fin s.logTrafficLight.length) {k : Nat} (hk : k ≤ spec.history) (τ : Fin T) (hτ : (τ : Int) = s.timestep - spec.history + k) :
    (e.lightRecords l)[k]? = some (womdOfTl (s.logTrafficLight[l] τ)) := by
  obtain ⟨hH, hT, rg, -, -, -, -, -, -, -, -, hp, hc, -⟩ := toWomd_ok h
  unfold WomdExample.lightRecords
  rcases Nat.lt_or_ge k spec.history with hk' | hk'
  · rw [List.append_assoc, List.getElem?_append_left (by simpa using hk'), List.getElem?_ofFn, dif_pos hk', hp]
    simp only
    rw [dynSlice_at _ _ (by omega) (by omega) ⟨k, hk'⟩ τ (by simpa using hτ)]
    rfl
  · have : k = spec.history := by omega
    rw [List.append_assoc, List.getElem?_append_right (by simpa using hk'), hc]
    simp only [this, List.length_ofFn, Nat.sub_self, List.cons_append, List.getElem?_cons_zero]
    rw [dynSlice_at _ _ (by omega) (by omega) 0 τ (by simp; omega)]
    rfl

/-- A state with at least `history` simulated steps behind it: written and read, steps 0 to `history` of the new log are the
simulated steps `timestep - history` to `timestep`, in everything but the sizes. -/
theorem C89_window (h : WrittenAndRead spec s s') (h0 : (spec.history : Int) ≤ s.timestep) (h1 : s.timestep < T) (i : Fin n)
    (k : Fin (spec.history + 1 + spec.future)) (hk : k.val ≤ spec.history) (τ : Fin T)
    (hτ : (τ : Int) = s.timestep - spec.history + k.val) : SameButSize (s.simTrajectory i τ) (s'.logTrajectory i k) := by
  obtain ⟨v, e, he, hs⟩ := h
  obtain ⟨s'', hs', hlog⟩ := C90_log e
  rw [hs] at hs'
  cases hs'
  obtain ⟨w, hw, hr⟩ := hlog i k
  rw [written_records he h0 h1 i hk τ hτ] at hw
  exact readsAs_written (Option.some.inj hw ▸ hr)

/-- The same for traffic lights; there are as many as before. -/
theorem C89_lights (h : WrittenAndRead spec s s') (h0 : (spec.history : Int) ≤ s.timestep) (h1 : s.timestep < T) :
    s'.logTrafficLight.length = s.logTrafficLight.length ∧
    ∀ (l : Nat) (hl : l < s.logTrafficLight.length) (hl' : l < s'.logTrafficLight.length)
      (k : Fin (spec.history + 1 + spec.future)) (_ : k.val ≤ spec.history) (τ : Fin T)
      (_ : (τ : Int) = s.timestep - spec.history + k.val), s'.logTrafficLight[l] k = s.logTrafficLight[l] τ := by
  obtain ⟨v, e, he, hs⟩ := h
  obtain ⟨s'', hs', hL, hlog⟩ := C90_lights e
  rw [hs] at hs'
  cases hs'
  refine ⟨hL, fun l hl hl' k hk τ hτ => ?_⟩
  obtain ⟨w, hw, hr⟩ := hlog ⟨l, hl⟩ k
  rw [written_light_records he h0 h1 ⟨l, hl⟩ hk τ hτ] at hw
  exact tlReadsAs_written (Option.some.inj hw ▸ hr)

/-- The speed and the direction of motion written for each step are those of the velocity; both are -1 for invalid steps. -/
theorem C89_motion {v : Bool} {e} (h : toWomd spec v s = .ok e) (h0 : (spec.history : Int) ≤ s.timestep) (h1 : s.timestep < T)
    (i : Fin n) {k : Nat} (hk : k ≤ spec.history) (τ : Fin T) (hτ : (τ : Int) = s.timestep - spec.history + k) :
    ∃ w, (e.records i)[k]? = some w ∧ let p := s.simTrajectory i τ
      (p.valid = true → 0 ≤ w.speed ∧ p.velX = w.speed * cos w.velYaw ∧ p.velY = w.speed * sin w.velYaw) ∧
      (p.valid = false → w.speed = -1 ∧ w.velYaw = -1) := by
  refine ⟨_, written_records h h0 h1 i hk τ hτ, fun hp => ?_, fun hp => ?_⟩
  · have hp' : (s.simTrajectory i τ).valid = true := hp
    simp only [womdOfPt, Pt.speed, hp', if_true]
    have := arctan2_heading (s.simTrajectory i τ).velX (s.simTrajectory i τ).velY
    exact ⟨hypot_nonneg _ _, this.1, this.2⟩
  · have hp' : (s.simTrajectory i τ).valid = false := hp
    simp [womdOfPt, Pt.speed, hp']

/-- Time stamps of the lights: those of the FIRST object at the same step, whether or not that object is present; none for the
future. -/
theorem C89_light_times {v : Bool} {e} (h : toWomd spec v s = .ok e) (h0 : (spec.history : Int) ≤ s.timestep) (h1 : s.timestep < T) :
    ∃ first : Fin n, first.val = 0 ∧
      (∀ (t : Fin spec.history) (τ : Fin T), (τ : Int) = s.timestep - spec.history + t →
        e.tlPastMicros t = (s.simTrajectory first τ).timestampMicros) ∧
      (∀ (t : Fin 1) (τ : Fin T), (τ : Int) = s.timestep → e.tlCurrentMicros t = (s.simTrajectory first τ).timestampMicros) ∧
      ∀ t, e.tlFutureMicros t = -1 := by
  unfold toWomd at h
  split at h
  · simp at h
  split at h
  · rename_i hH
    split at h
    · simp at h
    split at h
    · rename_i hn
      split at h
      · simp at h
      split at h
      · have := Except.ok.inj h
        subst this
        refine ⟨⟨0, hn⟩, rfl, fun t τ hτ => ?_, fun t τ hτ => ?_, fun _ => rfl⟩
        · simp only
          rw [dynSlice_at _ _ (by omega) (by omega) t τ (by omega)]
        · simp only
          rw [dynSlice_at _ _ (by omega) (by omega) t τ (by omega)]
      · simp at h
    · simp at h
  · simp at h

/-- The road graph comes back unchanged. -/
theorem C89_roadgraph (h : WrittenAndRead spec s s') : s'.roadgraphPoints = s.roadgraphPoints := by
  obtain ⟨v, e, he, hs⟩ := h
  obtain ⟨s'', hs', -, -, -, -, -, -, h8⟩ := loadWomd_eq e
  rw [hs] at hs'
  cases hs'
  obtain ⟨-, -, rg, h1, h2, -⟩ := toWomd_ok he
  rw [h8, h2, h1, List.map_map]
  congr 1
  conv_rhs => rw [← List.map_id rg]
  congr 1
  funext p
  cases p
  rename_i b
  cases b <;> rfl

/-- With fewer than `history` steps behind it, the "past" is taken from the END of the simulated trajectory: the last `history`
steps, which have not been simulated. -/
theorem C89_short_history (h : WrittenAndRead spec s s') (h0 : 0 ≤ s.timestep) (h1 : s.timestep < spec.history) (i : Fin n)
    (k : Fin (spec.history + 1 + spec.future)) (hk : k.val < spec.history) (τ : Fin T) (hτ : τ.val = T - spec.history + k.val) :
    SameButSize (s.simTrajectory i τ) (s'.logTrajectory i k) := by
  obtain ⟨v, e, he, hs⟩ := h
  obtain ⟨s'', hs', hlog⟩ := C90_log e
  rw [hs] at hs'
  cases hs'
  obtain ⟨w, hw, hr⟩ := hlog i k
  obtain ⟨hH, hT, rg, -, -, -, -, -, hp, hc, -⟩ := toWomd_ok he
  unfold WomdExample.records at hw
  rw [List.append_assoc, List.getElem?_append_left (by simpa using hk), List.getElem?_ofFn, dif_pos hk, hp] at hw
  simp only at hw
  rw [dynSlice_wrapped _ _ (by omega) (by omega) ⟨k, hk⟩ τ hτ] at hw
  exact readsAs_written (Option.some.inj hw ▸ hr)

/-! ### C58: metadata -/

/-- C58, full expectation: metadata of valid objects comes back as it was, and exactly the invalid objects come back invalid. -/
def C58_full : Prop :=
  ∀ (n T : Nat) [NeZero T] (spec : WomdSpec) (s : SimState ℝ n T) (s' : SimState ℝ n (spec.history + 1 + spec.future)),
    WrittenAndRead spec s s' → ∀ i, (s'.objectMetadata i).isValid = (s.objectMetadata i).isValid ∧
      ((s.objectMetadata i).isValid = true → s'.objectMetadata i = s.objectMetadata i)

/-- What comes back: ids and types rounded to float32, no object controlled; nothing but -1 and `false` for invalid objects. -/
theorem C58_exact (h : WrittenAndRead spec s s') (i : Fin n) :
    let m := s.objectMetadata i
    s'.objectMetadata i =
      if m.isValid then { m with id := f32OfInt m.id, objectType := f32OfInt m.objectType, isControlled := false }
      else ⟨-1, -1, false, false, false, false, false⟩ := by
  obtain ⟨v, e, he, hs⟩ := h
  obtain ⟨s'', hs', -, -, -, h5, -⟩ := loadWomd_eq e
  rw [hs] at hs'
  cases hs'
  obtain ⟨-, -, -, -, -, -, -, -, -, -, -, -, -, -, hm⟩ := toWomd_ok he
  intro m
  rw [h5, hm]
  show metaFromWomd (womdOfMeta m) = _
  have h1 : f32OfInt (-1) = -1 := f32OfInt_small (by decide)
  cases m
  rename_i a b c d e f g
  cases e
  · simp [metaFromWomd, womdOfMeta, h1]
  · cases c <;> cases d <;> cases f <;> simp [metaFromWomd, womdOfMeta, intOfBool]

/-- Holds for ids and types up to 2^24 in absolute value of objects that are not marked as controlled. Missing: larger ids (WOMD
ids are not bounded), which are stored in a float32 feature, and the mark itself, which is not stored. -/
theorem C58_small_ids_partial (h : WrittenAndRead spec s s') (i : Fin n) (hid : (s.objectMetadata i).id.natAbs ≤ 2 ^ 24)
    (hty : (s.objectMetadata i).objectType.natAbs ≤ 2 ^ 24) (hc : (s.objectMetadata i).isControlled = false) :
    (s'.objectMetadata i).isValid = (s.objectMetadata i).isValid ∧
      ((s.objectMetadata i).isValid = true → s'.objectMetadata i = s.objectMetadata i) := by
  rw [C58_exact h i]
  cases hv : (s.objectMetadata i).isValid
  · simp
  · simp only [if_true, f32OfInt_small hid, f32OfInt_small hty, hv, true_and]
    intro _
    cases hm : s.objectMetadata i
    rw [hm] at hc hv
    simp only at hc hv
    subst hc hv
    rfl

/-! ### C59: the unknown future -/

/-- C59, full expectation: a step after the exported one reads back as not valid. -/
def C59_full : Prop :=
  ∀ (n T : Nat) [NeZero T] (spec : WomdSpec) (s : SimState ℝ n T) (s' : SimState ℝ n (spec.history + 1 + spec.future)),
    WrittenAndRead spec s s' → ∀ i (k : Fin (spec.history + 1 + spec.future)), spec.history < k.val → (s'.logTrajectory i k).valid = false

theorem written_future {v : Bool} {e} (h : toWomd spec v s = .ok e) (i : Fin n) {k : Nat} (hk : spec.history < k)
    (hk' : k < spec.history + 1 + spec.future) : (e.records i)[k]? = some womdUnknownPt := by
  obtain ⟨-, -, -, -, -, -, -, -, -, -, hf, -⟩ := toWomd_ok h
  unfold WomdExample.records
  rw [List.getElem?_append_right (by simp; omega), List.getElem?_ofFn]
  have : k - (List.ofFn (e.past i) ++ [e.current i 0]).length < spec.future := by simp; omega
  rw [dif_pos this, hf]

/-- The opposite holds: after export every object, valid or not, is read as VALID at every later step, at position (-1, -1, -1)
and time -1. -/
theorem C59_exact (h : WrittenAndRead spec s s') (i : Fin n) (k : Fin (spec.history + 1 + spec.future)) (hk : spec.history < k.val) :
    let p := s'.logTrajectory i k
    p.valid = true ∧ p.x = -1 ∧ p.y = -1 ∧ p.z = -1 ∧ p.velX = -1 ∧ p.velY = -1 ∧ p.yaw = -1 ∧ p.timestampMicros = -1 := by
  obtain ⟨v, e, he, hs⟩ := h
  obtain ⟨s'', hs', hlog⟩ := C90_log e
  rw [hs] at hs'
  cases hs'
  obtain ⟨w, hw, hr⟩ := hlog i k
  rw [written_future he i hk k.isLt] at hw
  cases hw
  refine ⟨hr.valid.2 (by decide), hr.position.1, hr.position.2.1, hr.position.2.2, hr.velocity.1, hr.velocity.2, ?_, hr.time⟩
  obtain ⟨ha, h1, h2⟩ := hr.direction
  have hpi := two_le_pi
  have := ha.wrap
  rw [C21_wrap_id h1 h2] at this
  rw [this]
  exact C21_wrap_id (by show -π ≤ -1; linarith) (by show -1 < π; linarith)

/-- The same for traffic lights: every light is read as valid at every later step. -/
theorem C59_lights_exact (h : WrittenAndRead spec s s') (l : Nat) (hl : l < s'.logTrafficLight.length)
    (k : Fin (spec.history + 1 + spec.future)) (hk : spec.history < k.val) :
    s'.logTrafficLight[l] k = ⟨-1, -1, -1, -1, -1, true⟩ := by
  obtain ⟨v, e, he, hs⟩ := h
  obtain ⟨s'', hs', hL, hlog⟩ := C90_lights e
  rw [hs] at hs'
  cases hs'
  obtain ⟨w, hw, hr⟩ := hlog ⟨l, hL ▸ hl⟩ k
  obtain ⟨-, -, -, -, -, -, -, -, -, -, -, -, -, hf, -⟩ := toWomd_ok he
  have hlt : k.val - (List.ofFn (fun t => e.tlPast t ⟨l, hL ▸ hl⟩) ++ [e.tlCurrent 0 ⟨l, hL ▸ hl⟩]).length < spec.future := by
    have := k.isLt
    simp; omega
  unfold WomdExample.lightRecords at hw
  rw [List.getElem?_append_right (by simp; omega), List.getElem?_ofFn, dif_pos hlt, hf] at hw
  cases hw
  obtain ⟨⟨h1, h2, h3⟩, ⟨h4, h5⟩, h6⟩ := hr
  have h6' := h6.2 (by show ((-1 : Int) ≠ 0); decide)
  show (s'.logTrafficLight[(⟨l, hL ▸ hl⟩ : Fin s.logTrafficLight.length)] k) = _
  cases hq : (s'.logTrafficLight[(⟨l, hL ▸ hl⟩ : Fin s.logTrafficLight.length)] k)
  rw [hq] at h1 h2 h3 h4 h5 h6'
  simp only [womdUnknownTl] at h1 h2 h3 h4 h5 h6'
  subst h1 h2 h3 h4 h5 h6'
  rfl

/-- What holds: in the written example every later record is marked with -1 in every field, and steps up to the exported one keep
their validity. Missing: the marks are not understood when the example is read (`C59_exact`). -/
theorem C59_marked_partial {v : Bool} {e} (h : toWomd spec v s = .ok e) (h0 : (spec.history : Int) ≤ s.timestep) (h1 : s.timestep < T)
    (i : Fin n) : (∀ k, e.future i k = ⟨-1, -1, -1, -1, -1, -1, -1, -1, -1, -1, -1, -1, -1⟩) ∧
    ∀ k (hk : k ≤ spec.history) (τ : Fin T), (τ : Int) = s.timestep - spec.history + k →
      ∃ w, (e.records i)[k]? = some w ∧ w.valid = if (s.simTrajectory i τ).valid then 1 else 0 := by
  constructor
  · obtain ⟨-, -, -, -, -, -, -, -, -, -, hf, -⟩ := toWomd_ok h
    intro k
    rw [hf]; rfl
  · intro k hk τ hτ
    exact ⟨_, written_records h h0 h1 i hk τ hτ, rfl⟩

/-! ### C91: sizes -/

/-- C91, full expectation: an object that is valid now and whose length is the same at all its valid steps in the exported window
keeps its length. -/
def C91_full : Prop :=
  ∀ (n T : Nat) [NeZero T] (spec : WomdSpec) (s : SimState ℝ n T) (s' : SimState ℝ n (spec.history + 1 + spec.future)),
    WrittenAndRead spec s s' → (spec.history : Int) ≤ s.timestep → ∀ (i : Fin n) (now : Fin T) (ℓ : ℝ), (now : Int) = s.timestep →
    (s.simTrajectory i now).valid = true → (∀ τ ∈ validWindow s spec.history i, (s.simTrajectory i τ).length = ℓ) →
    ∀ k, (s'.logTrajectory i k).length = ℓ

theorem written_sum {v : Bool} {e} (h : toWomd spec v s = .ok e) (h0 : (spec.history : Int) ≤ s.timestep) (h1 : s.timestep < T)
    (i : Fin n) (f : WomdPt → ℝ) :
    (((e.records i).filter fun w => decide (w.valid ≠ 0)).map f).sum =
      (∑ τ ∈ validWindow s spec.history i, f (womdOfPt (s.simTrajectory i τ))) + spec.future * f womdUnknownPt := by
  let τ : Fin (spec.history + 1) → Fin T := fun k => ⟨(s.timestep - spec.history + k.val).toNat, by have := k.isLt; omega⟩
  have hτ : ∀ k, ((τ k : Fin T) : Int) = s.timestep - spec.history + k.val := fun k => by simp only [τ]; omega
  have hrec : e.records i = List.ofFn (fun k => womdOfPt (s.simTrajectory i (τ k))) ++ List.replicate spec.future womdUnknownPt := by
    apply List.ext_getElem?
    intro k
    rcases Nat.lt_or_ge k (spec.history + 1) with hk | hk
    · rw [written_records h h0 h1 i (by omega) (τ ⟨k, hk⟩) (hτ _), List.getElem?_append_left (by simpa using hk), List.getElem?_ofFn,
        dif_pos hk]
    · rw [List.getElem?_append_right (by simpa using hk)]
      rcases Nat.lt_or_ge k (spec.history + 1 + spec.future) with hk' | hk'
      · rw [written_future h i (by omega) hk', List.getElem?_replicate, if_pos (by simp; omega)]
      · rw [List.getElem?_eq_none (by simp [WomdExample.records]; omega), List.getElem?_eq_none (by simp; omega)]
  have hinj : Function.Injective τ := fun a b hab => by
    have h1 := hτ a
    have h2 := hτ b
    rw [hab] at h1
    apply Fin.ext
    omega
  have hV : validWindow s spec.history i = (Finset.univ.filter fun k => (s.simTrajectory i (τ k)).valid = true).map ⟨τ, hinj⟩ := by
    ext t
    simp only [validWindow, Finset.mem_filter, Finset.mem_univ, true_and, Finset.mem_map, Function.Embedding.coeFn_mk]
    constructor
    · rintro ⟨ha, hb, hc⟩
      have hk : (t.val - (s.timestep - spec.history)).toNat < spec.history + 1 := by omega
      have heq : τ ⟨(t.val - (s.timestep - spec.history)).toNat, hk⟩ = t := by
        apply Fin.ext
        simp only [τ]
        omega
      exact ⟨_, by rw [heq]; exact hc, heq⟩
    · rintro ⟨k, hk, rfl⟩
      have := hτ k
      have := k.isLt
      exact ⟨by omega, by omega, hk⟩
  rw [sum_filter_list, hrec, List.map_append, List.sum_append, List.map_ofFn, List.sum_ofFn, hV, Finset.sum_map, Finset.sum_filter]
  congr 1
  · refine Finset.sum_congr rfl fun k _ => ?_
    have hval : decide ((womdOfPt (s.simTrajectory i (τ k))).valid ≠ 0) = (s.simTrajectory i (τ k)).valid := by
      simp only [womdOfPt, intOfBool]
      by_cases hb : (s.simTrajectory i (τ k)).valid = true
      · simp [hb]
      · simp [Bool.eq_false_iff.2 hb]
    simp only [Function.comp, hval, Function.Embedding.coeFn_mk]
  · simp [womdUnknownPt]

theorem written_average {v : Bool} {e} (h : toWomd spec v s = .ok e) (h0 : (spec.history : Int) ≤ s.timestep) (h1 : s.timestep < T)
    (i : Fin n) (f : WomdPt → ℝ) (hf : f womdUnknownPt = -1) :
    averageSize f (e.records i) = if (validWindow s spec.history i).card + spec.future = 0 then -1 else
      ((∑ τ ∈ validWindow s spec.history i, f (womdOfPt (s.simTrajectory i τ))) - spec.future) /
        ((validWindow s spec.history i).card + spec.future) := by
  have hs := written_sum h h0 h1 i f
  have hc := written_sum h h0 h1 i fun _ => 1
  simp only [List.map_const', List.sum_replicate, nsmul_eq_mul, mul_one, Finset.sum_const] at hc
  have hc' : ((e.records i).filter fun w => decide (w.valid ≠ 0)).length = (validWindow s spec.history i).card + spec.future := by
    exact_mod_cast hc
  unfold averageSize
  simp only [← List.length_eq_zero_iff, hc', hs, hf]
  congr 1
  push_cast
  ring

/-- The sizes after writing and reading: averages in which each of the `future` unknown steps counts as a size of -1. -/
theorem C91_exact (h : WrittenAndRead spec s s') (h0 : (spec.history : Int) ≤ s.timestep) (h1 : s.timestep < T) (i : Fin n) (k) :
    let V := validWindow s spec.history i
    (V.card + spec.future ≠ 0 →
      (s'.logTrajectory i k).length = ((∑ τ ∈ V, (s.simTrajectory i τ).length) - spec.future) / (V.card + spec.future) ∧
      (s'.logTrajectory i k).width = ((∑ τ ∈ V, (s.simTrajectory i τ).width) - spec.future) / (V.card + spec.future) ∧
      (s'.logTrajectory i k).height = ((∑ τ ∈ V, (s.simTrajectory i τ).height) - spec.future) / (V.card + spec.future)) ∧
    (V.card + spec.future = 0 → (s'.logTrajectory i k).length = -1 ∧ (s'.logTrajectory i k).width = -1 ∧
      (s'.logTrajectory i k).height = -1) := by
  obtain ⟨v, e, he, hs⟩ := h
  obtain ⟨s'', hs', hsz⟩ := C90_sizes e
  rw [hs] at hs'
  cases hs'
  obtain ⟨e1, e2, e3⟩ := hsz i k
  intro V
  rw [e1, e2, e3, written_average he h0 h1 i _ rfl, written_average he h0 h1 i _ rfl, written_average he h0 h1 i _ rfl]
  constructor
  · intro hne
    rw [if_neg hne, if_neg hne, if_neg hne]
    exact ⟨rfl, rfl, rfl⟩
  · intro he
    rw [if_pos he, if_pos he, if_pos he]
    exact ⟨rfl, rfl, rfl⟩

/-- An object of constant length `ℓ < future / (number of valid steps)` comes back with a NEGATIVE length. With the usual 11 known
and 80 unknown steps that is every object shorter than 7.27 m. -/
theorem C91_negative (h : WrittenAndRead spec s s') (h0 : (spec.history : Int) ≤ s.timestep) (h1 : s.timestep < T) (i : Fin n) (ℓ : ℝ)
    (hℓ : ∀ τ ∈ validWindow s spec.history i, (s.simTrajectory i τ).length = ℓ)
    (hlt : (validWindow s spec.history i).card * ℓ < spec.future) (k) : (s'.logTrajectory i k).length < 0 := by
  obtain ⟨hA, hB⟩ := C91_exact h h0 h1 i k
  by_cases hz : (validWindow s spec.history i).card + spec.future = 0
  · rw [(hB hz).1]; norm_num
  · rw [(hA hz).1, Finset.sum_congr rfl hℓ, Finset.sum_const, nsmul_eq_mul]
    refine div_neg_of_neg_of_pos (by linarith) ?_
    exact_mod_cast Nat.pos_of_ne_zero hz

/-- What holds: a description without future steps keeps constant sizes. Missing: any future step spoils them (`C91_exact`). -/
theorem C91_no_future_partial (h : WrittenAndRead spec s s') (h0 : (spec.history : Int) ≤ s.timestep) (i : Fin n) (now : Fin T)
    (ℓ : ℝ) (hnow : (now : Int) = s.timestep) (hv : (s.simTrajectory i now).valid = true)
    (hℓ : ∀ τ ∈ validWindow s spec.history i, (s.simTrajectory i τ).length = ℓ) (hF : spec.future = 0) (k) :
    (s'.logTrajectory i k).length = ℓ := by
  have h1 : s.timestep < T := by have := now.isLt; omega
  have hmem : now ∈ validWindow s spec.history i := by simp [validWindow, hv, hnow]
  have hcard : (validWindow s spec.history i).card ≠ 0 := Finset.card_ne_zero_of_mem hmem
  have hcard' : ((validWindow s spec.history i).card : ℝ) ≠ 0 := by exact_mod_cast hcard
  rw [((C91_exact h h0 h1 i k).1 (by omega)).1, Finset.sum_congr rfl hℓ, Finset.sum_const, nsmul_eq_mul, hF]
  field_simp
  simp [mul_comm]

end

end

/-! ### A concrete export -/

/-- A car 4 m long with an id that float32 cannot hold, driving 1 m per step; a traffic light; one road-graph point. The simulation
is at step 2 of 4. -/
noncomputable def drivenScen : SimState ℝ 1 4 :=
  { simTrajectory := fun _ t => if t.val ≤ 2 then { ptAt t.val 0 0 10 0 with length := 4, timestampMicros := 100000 * t.val } else invalidPt
    logTrajectory := fun _ t => ptAt t.val 0 0 10 0
    logTrafficLight := [fun t => ⟨5, 5, 0, t.val, 17, true⟩]
    objectMetadata := fun _ => ⟨16777217, 1, true, true, true, false, false⟩
    timestep := 2, sdcPaths := none, roadgraphPoints := some [⟨1, 2, 0, 1, 0, 0, 15, 3, true⟩] }

/-- One object, one light, one point, one step of history, three of future. -/
def smallSpec : WomdSpec := { objects := 1, lights := 1, points := 1, history := 1, future := 3, paths := false }

theorem drivenScen_written : ∃ s', WrittenAndRead smallSpec drivenScen s' := by
  obtain ⟨e, he⟩ := (C89_accepts_iff smallSpec false drivenScen).2
    ⟨by decide, by decide, ⟨rfl, rfl, rfl, _, rfl, rfl⟩, by simp⟩
  obtain ⟨s', hs, -⟩ := loadWomd_eq e
  exact ⟨s', false, e, he, hs⟩

/-- Step 0 of what is read back is step 1 of the simulation. -/
example : ∃ s', WrittenAndRead smallSpec drivenScen s' ∧ (s'.logTrajectory 0 0).x = 1 ∧ (s'.logTrajectory 0 1).x = 2 := by
  obtain ⟨s', h⟩ := drivenScen_written
  refine ⟨s', h, ?_, ?_⟩
  · exact (C89_window h (by decide) (by decide) 0 (0 : Fin 5) (by decide) 1 rfl).position.1.trans (by simp [drivenScen, ptAt])
  · exact (C89_window h (by decide) (by decide) 0 (1 : Fin 5) (by decide) 2 rfl).position.1.trans (by simp [drivenScen, ptAt])

/-- The same state one step into the simulation, with two steps of history asked for: step 0 of what is read back is step 2. -/
example : ∃ s', WrittenAndRead { smallSpec with history := 2 } { drivenScen with timestep := 1 } s' ∧ (s'.logTrajectory 0 0).x = 2 := by
  obtain ⟨e, he⟩ := (C89_accepts_iff { smallSpec with history := 2 } false { drivenScen with timestep := 1 }).2
    ⟨by decide, by decide, ⟨rfl, rfl, rfl, _, rfl, rfl⟩, by simp⟩
  obtain ⟨s', hs, -⟩ := loadWomd_eq e
  have h : WrittenAndRead { smallSpec with history := 2 } { drivenScen with timestep := 1 } s' := ⟨false, e, he, hs⟩
  exact ⟨s', h, (C89_short_history h (by decide) (by decide) 0 (0 : Fin 6) (by decide) 2 rfl).position.1.trans
    (by simp [drivenScen, ptAt])⟩

theorem C58_violated : ¬ C58_full := by
  intro hall
  obtain ⟨s', h⟩ := drivenScen_written
  have := (hall _ _ _ _ _ h 0).2 rfl
  rw [C58_exact h] at this
  have := congrArg ObjMeta.id this
  revert this
  decide

theorem C59_violated : ¬ C59_full := by
  intro hall
  obtain ⟨s', h⟩ := drivenScen_written
  have := hall _ _ _ _ _ h 0 (2 : Fin 5) (by decide)
  rw [(C59_exact h 0 (2 : Fin 5) (by decide)).1] at this
  exact absurd this (by decide)

/-- The car of 4 m comes back 1 m long: two known steps, three unknown ones. -/
theorem C91_violated : ¬ C91_full := by
  intro hall
  obtain ⟨s', h⟩ := drivenScen_written
  have hℓ : ∀ τ ∈ validWindow drivenScen 1 0, (drivenScen.simTrajectory 0 τ).length = 4 := by
    intro τ hτ
    simp only [validWindow, Finset.mem_filter] at hτ
    have : τ.val ≤ 2 := by have := hτ.2.2.1; simp [drivenScen] at this; omega
    simp [drivenScen, this]
  have hW : validWindow drivenScen 1 0 = {1, 2} := by
    ext τ
    fin_cases τ <;> simp [validWindow, drivenScen, invalidPt, ptAt]
  have h1 := hall _ _ _ _ _ h (by decide) 0 2 4 rfl (by simp [drivenScen, ptAt]) hℓ 0
  have hW' : validWindow drivenScen smallSpec.history 0 = {1, 2} := hW
  have h2 := ((C91_exact h (by decide) (by decide) 0 0).1 (by rw [hW']; decide)).1
  rw [h1, Finset.sum_congr (f := fun τ => (drivenScen.simTrajectory 0 τ).length) (g := fun _ => (4 : ℝ)) rfl
    (s₁ := validWindow drivenScen smallSpec.history 0) hℓ, hW'] at h2
  rw [Finset.sum_const, show ({1, 2} : Finset (Fin 4)).card = 2 from rfl] at h2
  norm_num [smallSpec] at h2

end Waymax
