import Verif.Props.GeneratorBatch
/-
C118, continued: the states that the generator yields, with and without `pmap`.
-/

namespace Waymax

section
variable {R : Nat} {paths : Option (Nat × Nat)} {m : Option Int}

theorem stack_get {β γ : Type} {b k : Nat} (hk : k < b) (f : Nat → γ) (g : γ → Nd β) (x : Nd β) (rest : List Nat) :
    (Nd.stack (((List.range b).map f).map g) x).get (k :: rest) = (g (f k)).get rest := by
  show ((((List.range b).map f).map g).getD k x).get rest = _
  rw [List.getD_eq_getElem?_getD]
  simp [hk]

theorem stack_shape {β γ : Type} {b : Nat} (f : Nat → γ) (g : γ → Nd β) (x : Nd β) :
    (Nd.stack (((List.range b).map f).map g) x).shape = b :: x.shape := by
  show (((List.range b).map f).map g).length :: x.shape = _
  simp

/-- Scenario `k, p` of the outputs next to each other is scenario `p` of output `k`. -/
theorem stack_scenario {pre : List Nat} {n T L b : Nat} (f : Nat → StateNd ℝ) (h : ∀ k < b, StateShape (f k) pre n T L R paths) (hb : 0 < b) :
    StateShape (StateNd.stack ((List.range b).map f) (f 0)) (b :: pre) n T L R paths ∧
    ∀ k < b, ∀ p, InRange pre p → (StateNd.stack ((List.range b).map f) (f 0)).scenario n T (k :: p) = (f k).scenario n T p := by
  have h0 := h 0 hb
  constructor
  · refine ⟨⟨?_, ?_, ?_⟩, ?_, ?_, ?_, ?_⟩
    · have := h0.shaped.sim
      exact ⟨(stack_shape f (fun s => s.simTrajectory.x) _).trans (congrArg _ this.x), (stack_shape f (fun s => s.simTrajectory.y) _).trans (congrArg _ this.y),
        (stack_shape f (fun s => s.simTrajectory.z) _).trans (congrArg _ this.z), (stack_shape f (fun s => s.simTrajectory.velX) _).trans (congrArg _ this.velX),
        (stack_shape f (fun s => s.simTrajectory.velY) _).trans (congrArg _ this.velY), (stack_shape f (fun s => s.simTrajectory.yaw) _).trans (congrArg _ this.yaw),
        (stack_shape f (fun s => s.simTrajectory.valid) _).trans (congrArg _ this.valid),
        (stack_shape f (fun s => s.simTrajectory.timestampMicros) _).trans (congrArg _ this.timestampMicros),
        (stack_shape f (fun s => s.simTrajectory.length) _).trans (congrArg _ this.length), (stack_shape f (fun s => s.simTrajectory.width) _).trans (congrArg _ this.width),
        (stack_shape f (fun s => s.simTrajectory.height) _).trans (congrArg _ this.height)⟩
    · have := h0.shaped.log
      exact ⟨(stack_shape f (fun s => s.logTrajectory.x) _).trans (congrArg _ this.x), (stack_shape f (fun s => s.logTrajectory.y) _).trans (congrArg _ this.y),
        (stack_shape f (fun s => s.logTrajectory.z) _).trans (congrArg _ this.z), (stack_shape f (fun s => s.logTrajectory.velX) _).trans (congrArg _ this.velX),
        (stack_shape f (fun s => s.logTrajectory.velY) _).trans (congrArg _ this.velY), (stack_shape f (fun s => s.logTrajectory.yaw) _).trans (congrArg _ this.yaw),
        (stack_shape f (fun s => s.logTrajectory.valid) _).trans (congrArg _ this.valid),
        (stack_shape f (fun s => s.logTrajectory.timestampMicros) _).trans (congrArg _ this.timestampMicros),
        (stack_shape f (fun s => s.logTrajectory.length) _).trans (congrArg _ this.length), (stack_shape f (fun s => s.logTrajectory.width) _).trans (congrArg _ this.width),
        (stack_shape f (fun s => s.logTrajectory.height) _).trans (congrArg _ this.height)⟩
    · have := h0.shaped.metadata
      exact ⟨(stack_shape f (fun s => s.objectMetadata.ids) _).trans (congrArg _ this.ids),
        (stack_shape f (fun s => s.objectMetadata.objectTypes) _).trans (congrArg _ this.objectTypes),
        (stack_shape f (fun s => s.objectMetadata.isSdc) _).trans (congrArg _ this.isSdc),
        (stack_shape f (fun s => s.objectMetadata.isModeled) _).trans (congrArg _ this.isModeled),
        (stack_shape f (fun s => s.objectMetadata.isValid) _).trans (congrArg _ this.isValid),
        (stack_shape f (fun s => s.objectMetadata.objectsOfInterest) _).trans (congrArg _ this.objectsOfInterest),
        (stack_shape f (fun s => s.objectMetadata.isControlled) _).trans (congrArg _ this.isControlled)⟩
    · exact (stack_shape f StateNd.timestep _).trans (congrArg _ h0.time)
    · exact (stack_shape f StateNd.logTrafficLight _).trans (congrArg _ h0.lights)
    · obtain ⟨rg, h1, h2⟩ := h0.map
      refine ⟨_, by show (f 0).roadgraphPoints.map _ = _; rw [h1]; rfl, ?_⟩
      exact (stack_shape f (fun s => s.roadgraphPoints.getD rg) _).trans (congrArg _ h2)
    · have hp := h0.paths
      show ((f 0).sdcPaths.map _).map _ = _
      cases hq : (f 0).sdcPaths with
      | none => rw [hq] at hp; cases paths with
        | none => rfl
        | some q => cases hp
      | some q =>
        rw [hq] at hp
        cases paths with
        | none => cases hp
        | some q' =>
          simp only [Option.map_some, Option.some.injEq, Prod.mk.injEq] at hp ⊢
          exact ⟨(stack_shape f (fun s => (s.sdcPaths.getD q).1) _).trans (congrArg _ hp.1),
            (stack_shape f (fun s => (s.sdcPaths.getD q).2) _).trans (congrArg _ hp.2)⟩
  · intro k hk p hp
    have hkk := h k hk
    have hl := hp.length
    unfold StateNd.scenario
    congr 1
    · funext i t
      unfold StateNd.stack TrajNd.at_
      simp only [List.cons_append, stack_get hk]
    · funext i t
      unfold StateNd.stack TrajNd.at_
      simp only [List.cons_append, stack_get hk]
    · have e1 : (StateNd.stack ((List.range b).map f) (f 0)).logTrafficLight.shape.getD (k :: p).length 0 = L := by
        rw [show (StateNd.stack ((List.range b).map f) (f 0)).logTrafficLight.shape = b :: (pre ++ [L, T]) from
          (stack_shape f StateNd.logTrafficLight _).trans (congrArg _ h0.lights)]
        simp [← hl]
      have e2 : (f k).logTrafficLight.shape.getD p.length 0 = L := by rw [hkk.lights]; simp [← hl]
      rw [e1, e2]
      apply List.map_congr_left
      intro l _
      funext t
      exact stack_get hk f StateNd.logTrafficLight _ _
    · funext i
      unfold StateNd.stack MetaNd.at_
      simp only [List.cons_append, stack_get hk]
    · have e1 : (StateNd.stack ((List.range b).map f) (f 0)).timestep.shape = b :: pre := (stack_shape f StateNd.timestep _).trans (congrArg _ h0.time)
      rw [e1, hkk.time]
      exact stack_get hk f StateNd.timestep _ _
    · have p0 := h0.paths
      have pk := hkk.paths
      show ((f 0).sdcPaths.map _).map _ = _
      cases hq : (f 0).sdcPaths with
      | none =>
        rw [hq] at p0
        cases paths with
        | none =>
          cases hqk : (f k).sdcPaths with
          | none => rfl
          | some q => rw [hqk] at pk; cases pk
        | some q => cases p0
      | some q =>
        rw [hq] at p0
        cases paths with
        | none => cases p0
        | some q' =>
          cases hqk : (f k).sdcPaths with
          | none => rw [hqk] at pk; cases pk
          | some qk =>
            rw [hqk] at pk
            simp only [Option.map_some, Option.some.injEq, Prod.mk.injEq] at p0 pk ⊢
            have s1 := (stack_shape (b := b) f (fun s => (s.sdcPaths.getD q).1) q.1).trans (congrArg _ p0.1)
            have e1 : ∀ x : Nat, ((b :: (pre ++ [q'.1, q'.2])).getD (p.length + 1) x) = q'.1 := by intro x; simp [← hl]
            have e2 : ∀ x : Nat, ((pre ++ [q'.1, q'.2]).getD p.length x) = q'.1 := by intro x; simp [← hl]
            rw [s1, List.length_cons, e1, pk.1, e2]
            apply List.map_congr_left
            intro j _
            have g1 : ∀ rest, (Nd.stack (((List.range b).map f).map fun s => (s.sdcPaths.getD q).1) q.1).get (k :: rest) = qk.1.get rest := by
              intro rest; rw [stack_get hk, hqk]; rfl
            have g2 : ∀ rest, (Nd.stack (((List.range b).map f).map fun s => (s.sdcPaths.getD q).2) q.2).get (k :: rest) = qk.2.get rest := by
              intro rest; rw [stack_get hk, hqk]; rfl
            congr 1
            · unfold Nd.rows
              rw [s1, pk.1]
              have e3 : (b :: (pre ++ [q'.1, q'.2])).getD (k :: p ++ [j]).length 0 = q'.2 := by simp [← hl]
              have e4 : (pre ++ [q'.1, q'.2]).getD (p ++ [j]).length 0 = q'.2 := by simp [← hl]
              rw [e3, e4]
              exact List.map_congr_left fun x _ => g1 _
            · exact g2 _
    · obtain ⟨rg0, r1, r2⟩ := h0.map
      obtain ⟨rgk, r3, r4⟩ := hkk.map
      show ((f 0).roadgraphPoints.map _).map _ = _
      rw [r1, r3]
      simp only [Option.map_some, Option.some.injEq]
      have s1 := (stack_shape (b := b) f (fun s => s.roadgraphPoints.getD rg0) rg0).trans (congrArg _ r2)
      unfold Nd.rows
      rw [s1, r4]
      have e3 : (b :: (pre ++ [R])).getD (k :: p).length 0 = R := by simp [← hl]
      have e4 : (pre ++ [R]).getD p.length 0 = R := by simp [← hl]
      rw [e3, e4]
      apply List.map_congr_left
      intro x _
      refine (stack_get hk f (fun s => s.roadgraphPoints.getD rg0) _ _).trans ?_
      rw [r3]; rfl

theorem entry_get (D : Feats) (k : Nat) (key : List Char) :
    (D.entry k).get? key = (D.get? key).map fun v => { shape := v.shape.tail, get := fun idx => v.get (k :: idx) } := by
  unfold Feats.entry Feats.get?
  induction D with
  | nil => rfl
  | cons e D ih =>
    obtain ⟨k', v⟩ := e
    by_cases hk : key = k'
    · subst hk; simp [List.lookup]
    · simp only [List.map_cons, List.lookup, beq_eq_false_iff_ne.2 hk]
      exact ih

theorem entry_numAt (D : Feats) (k : Nat) (name : String) (idx : List Nat) : numAt (D.entry k) name idx = numAt D name (k :: idx) := by
  unfold numAt
  rw [entry_get]
  cases D.get? name.toList <;> rfl

/-- Conversion through `pmap`. -/
theorem pmap_load {D : Feats} {b devices : Nat} {bs : List Nat} (h : BatchShaped m R paths D (b :: bs))
    (hall : ∀ x ∈ D, ∃ s, x.2.shape = (b :: bs) ++ s) (hne : D ≠ []) (hb : 1 ≤ b) (hdev : b ≤ devices) (hK : ∀ q, paths = some q → 1 ≤ q.2) :
    ∃ S, pmapState devices (fun d => stateFromDict d paths.isSome) D = .ok S ∧ StateShape S (b :: bs) (kept m 128) 91 16 R paths ∧
      ∀ p, InRange (b :: bs) p → ∀ r, AtRecord R paths D p r → HoldsRecord R paths r (S.scenario (kept m 128) 91 p) := by
  have hentry : ∀ k, BatchShaped m R paths (D.entry k) bs := by
    intro k e he
    obtain ⟨v, h1, h2⟩ := h e he
    refine ⟨_, by rw [entry_get, h1]; rfl, ?_⟩
    show v.shape.tail = _
    rw [h2]; rfl
  have hconv := fun k => convert_load (hentry k) hK
  choose f hf hsh hat using hconv
  obtain ⟨s1, s2⟩ := stack_scenario f (fun k (_ : k < b) => hsh k) hb
  refine ⟨StateNd.stack ((List.range b).map f) (f 0), ?_, s1, fun p hp r hr => ?_⟩
  · unfold pmapState
    match D, hne with
    | e :: D', _ =>
      obtain ⟨s, hs⟩ := hall e List.mem_cons_self
      simp only [hs, List.cons_append]
      rw [assertThat_ok (fun x hx => by obtain ⟨s, hs⟩ := hall x hx; rw [hs]; rfl), exc_ok_bind, assertThat_ok ⟨hb, hdev⟩, exc_ok_bind,
        mapM_ok' (g := f) (fun k _ => hf k), exc_ok_bind]
      obtain ⟨b', rfl⟩ := Nat.exists_eq_add_of_le' hb
      rw [List.range_succ_eq_map]
      rfl
  · cases hp with
    | cons hk hp =>
      rename_i k p
      rw [s2 k hk p hp]
      refine hat k p hp r ⟨?_, ?_, ?_, ?_⟩
      · intro g hg i t ht; rw [entry_numAt]; exact hr.state g hg i t ht
      · intro g hg t l ht; rw [entry_numAt]; exact hr.lights g hg t l ht
      · intro g hg i; rw [entry_numAt]; exact hr.metadata g hg i
      · intro key sh hk idx; rw [entry_numAt]; exact hr.other key sh hk idx

end

/-! ### One batch -/

section
variable {c : DatasetConfig}

/-- A record that is preprocessed with aggregation has been parsed and aggregated. -/
theorem prepared_of_preprocess (hagg : c.aggregateTimesteps = true) {r : Record} {q : Feats} (h : preprocessSerialized c r = .ok q) :
    c.PathsGiven ∧ Prepared c.maxNumObjects c.maxNumRgPoints c.pathSizes r q := by
  unfold preprocessSerialized at h
  by_cases hp : c.PathsGiven
  · rw [description_ok hp, exc_ok_bind] at h
    obtain ⟨d, hd, h⟩ := bind_eq_ok.1 h
    rw [hagg] at h
    exact ⟨hp, d, hd, h⟩
  · rw [description_error hp] at h
    cases h

theorem pathSizes_isSome : c.pathSizes.isSome = c.includeSdcPaths := by
  unfold DatasetConfig.pathSizes
  cases c.includeSdcPaths <;> rfl

/-- The state made of a batch of preprocessed records: scenario by scenario the records. -/
theorem yield_load {devices : Nat} {e : Elem Feats} {recs : List Record}
    (hrec : List.Forall₂ (Prepared c.maxNumObjects c.maxNumRgPoints c.pathSizes) recs e.items) (hlen : e.items.length = e.shape.prod)
    (hpos : 0 < e.items.length) (hdev : c.distributed = true → ∃ b bs, e.shape = b :: bs ∧ b ≤ devices)
    (hK : c.includeSdcPaths = true → 1 ≤ c.numPointsPerPath.getD 0) :
    ∃ S, yieldState c devices e = .ok S ∧ StateShape S e.shape (kept c.maxNumObjects 128) 91 16 c.maxNumRgPoints c.pathSizes ∧
      List.Forall₂ (fun r s => HoldsRecord c.maxNumRgPoints c.pathSizes r s) recs (S.scenarios (kept c.maxNumObjects 128) 91) := by
  have hK' : ∀ q, c.pathSizes = some q → 1 ≤ q.2 := by
    intro q hq
    unfold DatasetConfig.pathSizes at hq
    split at hq
    · rename_i hi
      cases hq
      exact hK hi
    · cases hq
  obtain ⟨D, hD, hsh, hall, hne, hat⟩ := stack_load hrec hlen hpos
  have hconv : ∃ S, yieldState c devices e = .ok S ∧ StateShape S e.shape (kept c.maxNumObjects 128) 91 16 c.maxNumRgPoints c.pathSizes ∧
      ∀ p, InRange e.shape p → ∀ r, AtRecord c.maxNumRgPoints c.pathSizes D p r →
        HoldsRecord c.maxNumRgPoints c.pathSizes r (S.scenario (kept c.maxNumObjects 128) 91 p) := by
    unfold yieldState
    rw [hD, exc_ok_bind]
    dsimp only
    rw [← pathSizes_isSome]
    cases hd : c.distributed with
    | false => exact convert_load hsh hK'
    | true =>
      obtain ⟨b, bs, hs, hbd⟩ := hdev hd
      have hb : 1 ≤ b := by
        rw [hlen, hs, List.prod_cons] at hpos
        exact Nat.pos_of_mul_pos_right hpos
      rw [if_pos rfl]
      rw [hs] at hsh hall ⊢
      exact pmap_load hsh hall hne hb hbd hK'
  obtain ⟨S, h1, h2, h3⟩ := hconv
  refine ⟨S, h1, h2, ?_⟩
  unfold StateNd.scenarios
  rw [h2.time]
  have hrl : recs.length = e.shape.prod := by rw [hrec.length_eq, hlen]
  have hix := indices_flat e.shape
  have hl : (indices e.shape).length = e.shape.prod := by
    have := congrArg List.length hix
    simpa using this
  rw [List.forall₂_iff_get]
  refine ⟨by rw [List.length_map, hl, hrl], fun k hk hk' => ?_⟩
  rw [List.length_map] at hk'
  simp only [List.get_eq_getElem, List.getElem_map]
  have hp := mem_indices.1 (List.getElem_mem hk')
  obtain ⟨r, hr, hatr⟩ := hat _ hp
  have hflat : flatPos e.shape (indices e.shape)[k] = k := by
    have := List.getElem_of_eq hix (by rw [List.length_map]; exact hk')
    rw [List.getElem_map, List.getElem_range] at this
    exact this
  rw [hflat, List.getElem?_eq_getElem hk] at hr
  cases hr
  exact h3 _ hp _ hatr

end

end Waymax
