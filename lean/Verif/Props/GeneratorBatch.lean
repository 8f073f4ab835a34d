import Verif.Props.Generator
import Verif.Props.Batch
/-
C118, continued: batches of preprocessed records and the states made of them.
-/

namespace Waymax

/-! ### Flat positions -/

theorem flatPos_foldl (l : List (Nat × Nat)) (a : Nat) :
    l.foldl (fun a p => a * p.1 + p.2) a = a * (l.map Prod.fst).prod + l.foldl (fun a p => a * p.1 + p.2) 0 := by
  induction l generalizing a with
  | nil => simp
  | cons x l ih =>
    rw [List.foldl_cons, List.foldl_cons, ih, ih (0 * x.1 + x.2), List.map_cons, List.prod_cons]
    ring

theorem flatPos_cons {sh p : List Nat} (h : sh.length = p.length) (d i : Nat) : flatPos (d :: sh) (i :: p) = i * sh.prod + flatPos sh p := by
  unfold flatPos
  rw [List.zip_cons_cons, List.foldl_cons, flatPos_foldl, List.map_fst_zip h.le]
  ring

theorem flatPos_lt {sh p : List Nat} (h : InRange sh p) : flatPos sh p < sh.prod := by
  induction h with
  | nil => simp [flatPos]
  | cons hd h ih =>
    rw [flatPos_cons h.length_eq, List.prod_cons]
    rename_i d i sh p
    calc i * sh.prod + flatPos sh p < i * sh.prod + sh.prod := by omega
      _ = (i + 1) * sh.prod := by ring
      _ ≤ d * sh.prod := Nat.mul_le_mul_right _ hd

/-- The flat positions of the indices of a shape, in order. -/
theorem indices_flat (sh : List Nat) : (indices sh).map (flatPos sh) = List.range sh.prod := by
  have hlen : ∀ sh p, p ∈ indices sh → sh.length = p.length := by
    intro sh
    induction sh with
    | nil => intro p hp; simp [indices] at hp; simp [hp]
    | cons d sh ih =>
      intro p hp
      unfold indices at hp
      obtain ⟨k, -, hp⟩ := List.mem_flatMap.1 hp
      obtain ⟨q, hq, rfl⟩ := List.mem_map.1 hp
      simp [ih q hq]
  induction sh with
  | nil => rfl
  | cons d sh ih =>
    unfold indices
    rw [List.map_flatMap, List.prod_cons]
    have : ∀ k, ((indices sh).map (k :: ·)).map (flatPos (d :: sh)) = (List.range sh.prod).map (k * sh.prod + ·) := by
      intro k
      rw [← ih, List.map_map, List.map_map]
      exact List.map_congr_left fun p hp => flatPos_cons (hlen sh p hp) d k
    simp only [this]
    clear this ih
    induction d with
    | zero => simp
    | succ d ih =>
      rw [List.range_succ, List.flatMap_append, ih, Nat.succ_mul, List.range_add]
      simp

theorem mem_indices {sh p : List Nat} : p ∈ indices sh ↔ InRange sh p := by
  induction sh generalizing p with
  | nil => simp [indices, InRange]
  | cons d sh ih =>
    unfold indices
    rw [List.mem_flatMap]
    constructor
    · rintro ⟨k, hk, hp⟩
      obtain ⟨q, hq, rfl⟩ := List.mem_map.1 hp
      exact List.Forall₂.cons (List.mem_range.1 hk) (ih.1 hq)
    · intro h
      cases h with
      | cons hk h => exact ⟨_, List.mem_range.2 hk, List.mem_map.2 ⟨_, ih.2 h, rfl⟩⟩

/-! ### Stacking -/

section
variable {R : Nat} {paths : Option (Nat × Nat)} {m : Option Int}

/-- The dictionary is a preprocessed record. -/
def Prepared (m : Option Int) (R : Nat) (paths : Option (Nat × Nat)) (r : Record) (q : Feats) : Prop :=
  ∃ d, parseExample r (descList R paths) = .ok d ∧ preprocessWomd d true m = .ok q

/-- What a dictionary says about the example at batch index `p`: it is record `r`. -/
structure AtRecord (R : Nat) (paths : Option (Nat × Nat)) (D : Feats) (p : List Nat) (r : Record) : Prop where
  state : ∀ f ∈ stateNames, ∀ i t, t < 91 → numAt D ("state/" ++ "all" ++ "/" ++ f) (p ++ [i, t]) = r.stateVal f i t
  lights : ∀ f ∈ lightNames, ∀ t l, t < 91 → numAt D ("traffic_light_state/" ++ "all" ++ "/" ++ f) (p ++ [t, l]) = r.lightVal f t l
  metadata : ∀ f ∈ ["id", "type", "is_sdc", "tracks_to_predict", "objects_of_interest"], ∀ i,
    numAt D ("state/" ++ f) (p ++ [i]) = r.value ("state/" ++ f) i
  other : ∀ key sh, (String.toList key, sh) ∈ roadgraphFeatures R ++ pathsDesc paths → ∀ idx,
    numAt D key (p ++ idx) = r.value key (flatPos sh idx)

/-- The features of a batch have the shapes of `procDesc` behind the batch axes. -/
def BatchShaped (m : Option Int) (R : Nat) (paths : Option (Nat × Nat)) (D : Feats) (pre : List Nat) : Prop :=
  ∀ e ∈ procDesc m R paths, ∃ v, D.get? e.1 = some v ∧ v.shape = pre ++ e.2

theorem state_all (f : String) : ("state/" ++ "all" ++ "/" ++ f).toList = ("state/all/" ++ f).toList := by
  simp only [String.toList_append]; rfl

theorem light_all (f : String) : ("traffic_light_state/" ++ "all" ++ "/" ++ f).toList = ("traffic_light_state/all/" ++ f).toList := by
  simp only [String.toList_append]; rfl

theorem mem_proc_state {f : String} (hf : f ∈ stateNames) : (("state/all/" ++ f).toList, [kept m 128, 91]) ∈ procDesc m R paths := by
  unfold procDesc
  simp only [List.append_assoc]
  exact List.mem_append_left _ (List.mem_map.2 ⟨f, hf, rfl⟩)

theorem mem_proc_light {f : String} (hf : f ∈ lightNames) : (("traffic_light_state/all/" ++ f).toList, [91, 16]) ∈ procDesc m R paths := by
  unfold procDesc
  simp only [List.append_assoc]
  exact List.mem_append_right _ (List.mem_append_left _ (List.mem_map.2 ⟨f, hf, rfl⟩))

theorem mem_proc_meta {f : String} (hf : f ∈ ["id", "type", "is_sdc", "tracks_to_predict", "objects_of_interest"]) :
    (("state/" ++ f).toList, [kept m 128]) ∈ procDesc m R paths := by
  unfold procDesc
  rw [List.append_assoc]
  exact List.mem_append_left _ (List.mem_append_right _ (List.mem_map.2 ⟨f, hf, rfl⟩))

theorem mem_proc_other {e : List Char × List Nat} (h : e ∈ roadgraphFeatures R ++ pathsDesc paths) : e ∈ procDesc m R paths := by
  unfold procDesc
  rw [List.append_assoc]
  exact List.mem_append_right _ h

theorem prepared_shaped {r : Record} {q : Feats} (h : Prepared m R paths r q) : BatchShaped m R paths q [] := by
  obtain ⟨d, h1, h2⟩ := h
  exact proc_has h1 h2

theorem numAt_get {D : Feats} {name : String} {v : Nd ℝ} (h : D.get? name.toList = some v) (idx : List Nat) : numAt D name idx = v.get idx := by
  unfold numAt; rw [h]; rfl

theorem prepared_at {r : Record} {q : Feats} (h : Prepared m R paths r q) : AtRecord R paths q [] r := by
  obtain ⟨d, h1, h2⟩ := h
  refine ⟨fun f hf i t ht => ?_, fun f hf t l ht => ?_, fun f hf i => ?_, fun key sh hk idx => ?_⟩
  · obtain ⟨v, hv, -, hg⟩ := proc_state h1 h2 hf
    rw [← state_all] at hv
    rw [numAt_get hv]; exact hg i t ht
  · obtain ⟨v, hv, -, hg⟩ := proc_light h1 h2 hf
    rw [← light_all] at hv
    rw [numAt_get hv]; exact hg t l ht
  · obtain ⟨v, hv, -, hg⟩ := proc_meta h1 h2 hf
    rw [numAt_get hv]; exact hg i
  · obtain ⟨v, hv, -, hg⟩ := proc_other h1 h2 hk
    rw [numAt_get hv]; exact hg idx

theorem lookup_map_key {β : Type} (F : List Char → β) {K : List (List Char)} {k : List Char} (h : k ∈ K) :
    (K.map fun k => (k, F k)).lookup k = some (F k) := by
  induction K with
  | nil => cases h
  | cons a K ih =>
    by_cases hk : k = a
    · subst hk; simp [List.lookup]
    · rw [List.map_cons, List.lookup, beq_eq_false_iff_ne.2 hk]
      exact ih ((List.mem_cons.1 h).resolve_left hk)

/-- Preprocessed records can be put together; the example at a batch index is the record at its flat position. -/
theorem stack_load {e : Elem Feats} {recs : List Record} (hrec : List.Forall₂ (Prepared m R paths) recs e.items)
    (hlen : e.items.length = e.shape.prod) (hpos : 0 < e.items.length) :
    ∃ D, stackFeats e = .ok D ∧ BatchShaped m R paths D e.shape ∧ (∀ x ∈ D, ∃ s, x.2.shape = e.shape ++ s) ∧ D ≠ [] ∧
      ∀ p, InRange e.shape p → ∃ r, recs[flatPos e.shape p]? = some r ∧ AtRecord R paths D p r := by
  have hitem : ∀ it ∈ e.items, ∃ r, Prepared m R paths r it := by
    intro it hit
    obtain ⟨k, hk, rfl⟩ := List.mem_iff_getElem.1 hit
    have hk' : k < recs.length := by rw [hrec.length_eq]; exact hk
    exact ⟨recs[k], List.Forall₂.get hrec hk' hk⟩
  obtain ⟨sh, items⟩ := e
  simp only at hrec hlen hpos hitem ⊢
  match items, hpos with
  | d0 :: ds, _ =>
    let v0 : List Char → Nd ℝ := fun k => (d0.get? k).getD ⟨[], fun _ => 0⟩
    let F : List Char → Nd ℝ := fun k =>
      { shape := sh ++ (v0 k).shape
        get := fun idx => (((d0 :: ds).map fun it => (it.get? k).getD (v0 k)).getD (flatPos sh (idx.take sh.length)) (v0 k)).get (idx.drop sh.length) }
    obtain ⟨r0, hr0⟩ := hitem d0 List.mem_cons_self
    have hkeys : ∀ k ∈ d0.map Prod.fst, ∀ it ∈ d0 :: ds, ∃ w, it.get? k = some w ∧ w.shape = (v0 k).shape := by
      intro k hk it hit
      obtain ⟨v, hv⟩ := Option.isSome_iff_exists.1 (lookup_isSome_iff.2 hk)
      have hv : d0.get? k = some v := hv
      obtain ⟨dd, h1, h2⟩ := hr0
      obtain ⟨s, hs, hvs⟩ := proc_only h1 h2 hv
      obtain ⟨r, dd', h1', h2'⟩ := hitem it hit
      obtain ⟨w, hw, hws⟩ := proc_has h1' h2' _ hs
      exact ⟨w, hw, by show _ = ((d0.get? k).getD _).shape; rw [hv, hws]; exact hvs.symm⟩
    have hok : (d0.map Prod.fst).mapM (stackKey sh (d0 :: ds) d0) = .ok ((d0.map Prod.fst).map fun k => (k, F k)) := by
      refine mapM_ok' fun k hk => ?_
      obtain ⟨v, hv, -⟩ := hkeys k hk d0 List.mem_cons_self
      have hv0 : v0 k = v := by show (d0.get? k).getD _ = v; rw [hv]; rfl
      have hvs : (d0 :: ds).mapM (fun d => d.fetch k) = .ok ((d0 :: ds).map fun it => (it.get? k).getD (v0 k)) := by
        refine mapM_ok' fun it hit => ?_
        obtain ⟨w, hw, -⟩ := hkeys k hk it hit
        rw [hw]
        exact fetch_ok.2 hw
      unfold stackKey
      rw [fetch_ok.2 hv, exc_ok_bind, hvs, exc_ok_bind, assertThat_ok, exc_ok_bind]
      · rw [← hv0]; rfl
      · intro w hw
        obtain ⟨it, hit, rfl⟩ := List.mem_map.1 hw
        obtain ⟨w, hw, hs⟩ := hkeys k hk it hit
        rw [hw, ← hv0]; exact hs
    have hget : ∀ k v, d0.get? k = some v → Feats.get? ((d0.map Prod.fst).map fun k => (k, F k)) k = some (F k) := by
      intro k v hv
      exact lookup_map_key F (lookup_isSome_iff.1 (by rw [show List.lookup k d0 = some v from hv]; rfl))
    have hD : ∀ e ∈ procDesc m R paths, ∃ v, Feats.get? ((d0.map Prod.fst).map fun k => (k, F k)) e.1 = some v ∧ v.shape = sh ++ e.2 ∧
        ∀ p idx, InRange sh p → ∃ r it w, recs[flatPos sh p]? = some r ∧ (d0 :: ds)[flatPos sh p]? = some it ∧ Prepared m R paths r it ∧
          it.get? e.1 = some w ∧ v.get (p ++ idx) = w.get idx := by
      intro e he
      obtain ⟨v, hv, hvs⟩ := prepared_shaped hr0 e he
      have hv0 : v0 e.1 = v := by show (d0.get? e.1).getD _ = v; rw [hv]; rfl
      refine ⟨F e.1, hget _ v hv, by show sh ++ (v0 e.1).shape = _; rw [hv0, hvs]; rfl, fun p idx hp => ?_⟩
      have hlt : flatPos sh p < (d0 :: ds).length := by rw [hlen]; exact flatPos_lt hp
      have hlt' : flatPos sh p < recs.length := by rw [hrec.length_eq]; exact hlt
      have hpr := List.Forall₂.get hrec hlt' hlt
      obtain ⟨w, hw, -⟩ := prepared_shaped hpr e he
      refine ⟨_, _, w, List.getElem?_eq_getElem hlt', List.getElem?_eq_getElem hlt, hpr, hw, ?_⟩
      show (((d0 :: ds).map fun it => (it.get? e.1).getD (v0 e.1)).getD (flatPos sh ((p ++ idx).take sh.length)) (v0 e.1)).get
        ((p ++ idx).drop sh.length) = _
      rw [List.take_left' hp.length.symm, List.drop_left' hp.length.symm, List.getD_eq_getElem?_getD, List.getElem?_map,
        List.getElem?_eq_getElem hlt, Option.map_some, Option.getD_some]
      rw [show ((d0 :: ds)[flatPos sh p]).get? e.1 = some w from hw]
      rfl
    refine ⟨_, hok, fun e he => ?_, fun x hx => ?_, ?_, fun p hp => ?_⟩
    · obtain ⟨v, h1, h2, -⟩ := hD e he
      exact ⟨v, h1, h2⟩
    · obtain ⟨k, -, rfl⟩ := List.mem_map.1 hx
      exact ⟨_, rfl⟩
    · obtain ⟨v, h1, -⟩ := hD _ (mem_proc_state (R := R) (paths := paths) (m := m) (f := "x") (by decide))
      intro hn
      rw [hn] at h1
      cases h1
    · have hlt : flatPos sh p < (d0 :: ds).length := by rw [hlen]; exact flatPos_lt hp
      have hlt' : flatPos sh p < recs.length := by rw [hrec.length_eq]; exact hlt
      have hpr := List.Forall₂.get hrec hlt' hlt
      have hat := prepared_at hpr
      have key : ∀ (name : String) (s : List Nat), (name.toList, s) ∈ procDesc m R paths → ∀ idx,
          numAt ((d0.map Prod.fst).map fun k => (k, F k)) name (p ++ idx) = numAt ((d0 :: ds)[flatPos sh p]) name idx := by
        intro name s hs idx
        obtain ⟨v, h1, -, h3⟩ := hD _ hs
        obtain ⟨r, it, w, -, hit, -, hw, hg⟩ := h3 p idx hp
        rw [List.getElem?_eq_getElem hlt] at hit
        cases hit
        rw [numAt_get h1, numAt_get hw, hg]
      refine ⟨_, List.getElem?_eq_getElem hlt', fun f hf i t ht => ?_, fun f hf t l ht => ?_, fun f hf i => ?_, fun k s hk idx => ?_⟩
      · rw [key _ [kept m 128, 91] (by rw [state_all]; exact mem_proc_state hf)]
        exact hat.state f hf i t ht
      · rw [key _ [91, 16] (by rw [light_all]; exact mem_proc_light hf)]
        exact hat.lights f hf t l ht
      · rw [key _ _ (mem_proc_meta hf)]
        exact hat.metadata f hf i
      · rw [key _ _ (mem_proc_other hk)]
        exact hat.other k s hk idx

/-! ### Conversion -/

theorem shaped_womd {D : Feats} {pre : List Nat} (h : BatchShaped m R paths D pre) : WomdBatch D "all" pre (kept m 128) 91 16 R := by
  have hs : ∀ f ∈ stateNames, HasFeat D ("state/" ++ "all" ++ "/" ++ f) (pre ++ [kept m 128, 91]) := fun f hf => by
    obtain ⟨v, h1, h2⟩ := h _ (mem_proc_state hf)
    exact ⟨v, by rw [state_all]; exact h1, h2⟩
  have hl : ∀ f ∈ lightNames, HasFeat D ("traffic_light_state/" ++ "all" ++ "/" ++ f) (pre ++ [91, 16]) := fun f hf => by
    obtain ⟨v, h1, h2⟩ := h _ (mem_proc_light hf)
    exact ⟨v, by rw [light_all]; exact h1, h2⟩
  refine ⟨fun f hf => hs f ?_, fun f hf => hl f ?_, fun f hf => ?_, fun f hf => ?_, fun f hf => ?_⟩
  · simp only [List.mem_cons, List.not_mem_nil, or_false] at hf
    rcases hf with rfl | rfl | rfl | rfl | rfl | rfl | rfl | rfl | rfl | rfl | rfl <;> decide
  · simp only [List.mem_cons, List.not_mem_nil, or_false] at hf
    rcases hf with rfl | rfl | rfl | rfl | rfl | rfl <;> decide
  · obtain ⟨v, h1, h2⟩ := h _ (mem_proc_meta hf)
    exact ⟨v, h1, h2⟩
  · obtain ⟨v, h1, h2⟩ := h (("roadgraph_samples/" ++ f).toList, [R, 3]) (mem_proc_other (List.mem_append_left _ (by
      simp only [List.mem_cons, List.not_mem_nil, or_false] at hf
      unfold roadgraphFeatures
      rcases hf with rfl | rfl
      · exact List.mem_cons_of_mem _ (List.mem_cons_of_mem _ (List.mem_cons_of_mem _ (List.mem_cons_of_mem _ List.mem_cons_self)))
      · exact List.mem_cons_self)))
    exact ⟨v, h1, h2⟩
  · obtain ⟨v, h1, h2⟩ := h (("roadgraph_samples/" ++ f).toList, [R, 1]) (mem_proc_other (List.mem_append_left _ (by
      simp only [List.mem_cons, List.not_mem_nil, or_false] at hf
      unfold roadgraphFeatures
      rcases hf with rfl | rfl | rfl
      · exact List.mem_cons_of_mem _ (List.mem_cons_of_mem _ List.mem_cons_self)
      · exact List.mem_cons_of_mem _ List.mem_cons_self
      · exact List.mem_cons_of_mem _ (List.mem_cons_of_mem _ (List.mem_cons_of_mem _ List.mem_cons_self)))))
    exact ⟨v, h1, h2⟩

theorem path_mem {P K : Nat} {f : String} (hf : f ∈ ["id", "valid", "arc_length"]) :
    (("path_samples/" ++ f).toList, [P, K]) ∈ roadgraphFeatures R ++ pathsDesc (some (P, K)) := by
  refine List.mem_append_right _ ?_
  unfold pathsDesc pathFeatures
  simp only [List.mem_cons, List.not_mem_nil, or_false] at hf
  rcases hf with rfl | rfl | rfl
  · exact List.mem_cons_of_mem _ (List.mem_cons_of_mem _ List.mem_cons_self)
  · exact List.mem_cons_of_mem _ List.mem_cons_self
  · exact List.mem_cons_of_mem _ (List.mem_cons_of_mem _ (List.mem_cons_of_mem _ List.mem_cons_self))

theorem path_xyz_mem {P K : Nat} : ("path_samples/xyz".toList, [P, K, 3]) ∈ roadgraphFeatures R ++ pathsDesc (some (P, K)) :=
  List.mem_append_right _ List.mem_cons_self

theorem path_route_mem {P K : Nat} : ("path_samples/on_route".toList, [P, 1]) ∈ roadgraphFeatures R ++ pathsDesc (some (P, K)) :=
  List.mem_append_right _ (List.mem_cons_of_mem _ (List.mem_cons_of_mem _ (List.mem_cons_of_mem _ (List.mem_cons_of_mem _ List.mem_cons_self))))

theorem shaped_paths {P K : Nat} {D : Feats} {pre : List Nat} (h : BatchShaped m R (some (P, K)) D pre) : PathBatch D pre P K := by
  refine ⟨?_, fun f hf => ?_, ?_⟩
  · exact h _ (mem_proc_other path_xyz_mem)
  · exact h _ (mem_proc_other (path_mem hf))
  · exact h _ (mem_proc_other path_route_mem)

/-- Map point `k` of a record. -/
noncomputable def Record.point (r : Record) (k : Nat) : WomdRg :=
  let v := fun (f : String) => r.value ("roadgraph_samples/" ++ f)
  { x := v "xyz" (k * 3), y := v "xyz" (k * 3 + 1), z := v "xyz" (k * 3 + 2)
    dirX := v "dir" (k * 3), dirY := v "dir" (k * 3 + 1), dirZ := v "dir" (k * 3 + 2)
    type := intOfReal (v "type" k), id := intOfReal (v "id" k), valid := if v "valid" k = 0 then 0 else 1 }

/-- The first `n` objects of a record as an example. -/
noncomputable def Record.example (r : Record) (n R : Nat) : WomdExample n 16 10 80 :=
  { past := fun i t => r.objectEntry "past" (i * 10 + t), current := fun i _ => r.objectEntry "current" i
    future := fun i t => r.objectEntry "future" (i * 80 + t), tlPast := fun t l => r.lightEntry "past" (t * 16 + l)
    tlCurrent := fun _ l => r.lightEntry "current" l, tlFuture := fun t l => r.lightEntry "future" (t * 16 + l)
    tlPastMicros := fun _ => 0, tlCurrentMicros := fun _ => 0, tlFutureMicros := fun _ => 0
    metadata := fun i =>
      let v := fun f : String => r.value ("state/" ++ f) i
      let mark := fun x : ℝ => if x = 1 then 1 else if x = -1 then -1 else (0 : Int)
      { id := intOfReal (v "id"), type := intOfReal (v "type"), isSdc := mark (v "is_sdc"), tracksToPredict := mark (v "tracks_to_predict")
        objectsOfInterest := mark (v "objects_of_interest") }
    roadgraph := (List.range R).map r.point }

theorem aggregate_val {β : Type} {H F : Nat} (p : Fin H → β) (c : Fin 1 → β) (f : Fin F → β) (t : Fin (H + 1 + F)) :
    aggregate p c f t = if h : t.val < H then p ⟨t, h⟩ else if h' : t.val < H + 1 then c 0 else f ⟨t.val - (H + 1), by omega⟩ := by
  have h := aggregate_get p c f t
  have hl : (List.ofFn p ++ [c 0]).length = H + 1 := by simp
  split
  · rename_i h1
    rw [List.getElem?_append_left (by omega), List.getElem?_append_left (by simpa using h1)] at h
    simpa [h1] using h.symm
  · rename_i h1
    split
    · rename_i h2
      rw [List.getElem?_append_left (by omega), List.getElem?_append_right (by simp; omega)] at h
      have : t.val = H := by omega
      simpa [this] using h.symm
    · rename_i h2
      rw [List.getElem?_append_right (by omega), hl] at h
      have h3 : t.val - (H + 1) < F := by omega
      simpa [h3] using h.symm

/-- An object record from its numbers. -/
noncomputable def mkPt (v : String → ℝ) : WomdPt :=
  { x := v "x", y := v "y", z := v "z", velocityX := v "velocity_x", velocityY := v "velocity_y", bboxYaw := v "bbox_yaw"
    length := v "length", width := v "width", height := v "height", speed := v "speed", velYaw := v "vel_yaw"
    timestampMicros := intOfReal (v "timestamp_micros"), valid := if v "valid" = 0 then 0 else 1 }

theorem mkPt_congr {v w : String → ℝ} (h : ∀ f ∈ stateNames, v f = w f) : mkPt v = mkPt w := by
  unfold mkPt
  rw [h "x" (by decide), h "y" (by decide), h "z" (by decide), h "velocity_x" (by decide), h "velocity_y" (by decide),
    h "bbox_yaw" (by decide), h "length" (by decide), h "width" (by decide), h "height" (by decide), h "speed" (by decide),
    h "vel_yaw" (by decide), h "timestamp_micros" (by decide), h "valid" (by decide)]

theorem mkPt_wrap (v : String → ℝ) : mkPt (fun f => if f = "bbox_yaw" then wrapYaws (v f) else v f) =
    { mkPt v with bboxYaw := wrapYaws (mkPt v).bboxYaw } := by
  unfold mkPt
  simp

/-- A light record from its numbers. -/
noncomputable def mkTl (v : String → ℝ) : WomdTl :=
  { x := v "x", y := v "y", z := v "z", state := intOfReal (v "state"), id := intOfReal (v "id"), valid := if v "valid" = 0 then 0 else 1 }

theorem mkTl_congr {v w : String → ℝ} (h : ∀ f ∈ lightNames, v f = w f) : mkTl v = mkTl w := by
  unfold mkTl
  rw [h "x" (by decide), h "y" (by decide), h "z" (by decide), h "state" (by decide), h "id" (by decide), h "valid" (by decide)]

theorem entry_at {r : Record} {D : Feats} {p : List Nat} (hat : AtRecord R paths D p r) (n : Nat) (i : Fin n) (t : Fin (10 + 1 + 80)) :
    objectRecord D "all" p i t = (r.example n R).objects i t := by
  have ht : t.val < 91 := t.isLt
  have hw : aggregate ((r.example n R).past i) ((r.example n R).current i) ((r.example n R).future i) t =
      mkPt fun f => if t.val < 10 then r.value ("state/past/" ++ f) (i * 10 + t) else if t.val < 11 then r.value ("state/current/" ++ f) i
        else r.value ("state/future/" ++ f) (i * 80 + (t - 11)) := by
    rw [aggregate_val]
    by_cases c1 : t.val < 10
    · simp only [c1, dif_pos, if_true]; rfl
    · by_cases c2 : t.val < 11
      · rw [dif_neg c1, dif_pos c2]
        simp only [c1, c2, if_true, if_false]; rfl
      · rw [dif_neg c1, dif_neg c2]
        simp only [c1, c2, if_false]; rfl
  show objectRecord D "all" p i t = { aggregate ((r.example n R).past i) ((r.example n R).current i) ((r.example n R).future i) t with
    bboxYaw := wrapYaws (aggregate ((r.example n R).past i) ((r.example n R).current i) ((r.example n R).future i) t).bboxYaw }
  rw [hw, ← mkPt_wrap]
  exact mkPt_congr fun f hf => hat.state f hf i.val t.val ht

theorem light_at {r : Record} {D : Feats} {p : List Nat} (hat : AtRecord R paths D p r) (n : Nat) (t : Fin (10 + 1 + 80)) (l : Fin 16) :
    lightRecord D "all" p t l = (r.example n R).lights t l := by
  have ht : t.val < 91 := t.isLt
  have hw : (r.example n R).lights t l = mkTl fun f => r.lightVal f t l := by
    show aggregate (r.example n R).tlPast (r.example n R).tlCurrent (r.example n R).tlFuture t l = _
    rw [aggregate_val]
    unfold Record.lightVal
    by_cases c1 : t.val < 10
    · simp only [c1, dif_pos, if_true]; rfl
    · by_cases c2 : t.val < 11
      · rw [dif_neg c1, dif_pos c2]
        simp only [c1, c2, if_true, if_false]; rfl
      · rw [dif_neg c1, dif_neg c2]
        simp only [c1, c2, if_false]; rfl
  rw [hw]
  exact mkTl_congr fun f hf => hat.lights f hf t.val l.val ht

theorem meta_at {r : Record} {D : Feats} {p : List Nat} (hat : AtRecord R paths D p r) (n : Nat) (i : Fin n) :
    metaRecord D p i = (r.example n R).metadata i := by
  unfold metaRecord Record.example
  dsimp only
  beta_reduce
  rw [hat.metadata "id" (by decide), hat.metadata "type" (by decide), hat.metadata "is_sdc" (by decide),
    hat.metadata "tracks_to_predict" (by decide), hat.metadata "objects_of_interest" (by decide)]

theorem point_at {r : Record} {D : Feats} {p : List Nat} (hat : AtRecord R paths D p r) (n : Nat) :
    (List.range R).map (pointRecord D p) = (r.example n R).roadgraph := by
  unfold Record.example
  dsimp only
  apply List.map_congr_left
  intro k _
  have h3 : ∀ f ∈ ["xyz", "dir"], ∀ j, numAt D ("roadgraph_samples/" ++ f) (p ++ [k, j]) = r.value ("roadgraph_samples/" ++ f) (k * 3 + j) := by
    intro f hf j
    rw [hat.other _ [R, 3] (List.mem_append_left _ (by
      simp only [List.mem_cons, List.not_mem_nil, or_false] at hf
      unfold roadgraphFeatures
      rcases hf with rfl | rfl
      · exact List.mem_cons_of_mem _ (List.mem_cons_of_mem _ (List.mem_cons_of_mem _ (List.mem_cons_of_mem _ List.mem_cons_self)))
      · exact List.mem_cons_self)) [k, j]]
    simp [flatPos]
  have h1 : ∀ f ∈ ["type", "id", "valid"], numAt D ("roadgraph_samples/" ++ f) (p ++ [k, 0]) = r.value ("roadgraph_samples/" ++ f) k := by
    intro f hf
    rw [hat.other _ [R, 1] (List.mem_append_left _ (by
      simp only [List.mem_cons, List.not_mem_nil, or_false] at hf
      unfold roadgraphFeatures
      rcases hf with rfl | rfl | rfl
      · exact List.mem_cons_of_mem _ (List.mem_cons_of_mem _ List.mem_cons_self)
      · exact List.mem_cons_of_mem _ List.mem_cons_self
      · exact List.mem_cons_of_mem _ (List.mem_cons_of_mem _ (List.mem_cons_of_mem _ List.mem_cons_self)))) [k, 0]]
    simp [flatPos]
  unfold pointRecord
  dsimp only
  beta_reduce
  rw [h3 "xyz" (by decide), h3 "xyz" (by decide), h3 "xyz" (by decide), h3 "dir" (by decide), h3 "dir" (by decide), h3 "dir" (by decide),
    h1 "type" (by decide), h1 "id" (by decide), h1 "valid" (by decide)]
  rfl

theorem path_at {r : Record} {D : Feats} {p : List Nat} {P K : Nat} (hat : AtRecord R (some (P, K)) D p r) (j : Nat) :
    pathRecord D p K j = r.path K j := by
  have h1 : ∀ f ∈ ["id", "valid", "arc_length"], ∀ k, numAt D ("path_samples/" ++ f) (p ++ [j, k]) = r.value ("path_samples/" ++ f) (j * K + k) := by
    intro f hf k
    rw [hat.other _ [P, K] (path_mem hf) [j, k]]
    simp [flatPos]
  have h2 : ∀ k c, numAt D "path_samples/xyz" (p ++ [j, k, c]) = r.value "path_samples/xyz" ((j * K + k) * 3 + c) := by
    intro k c
    rw [hat.other _ [P, K, 3] path_xyz_mem [j, k, c]]
    simp [flatPos]
  have h3 : numAt D "path_samples/on_route" (p ++ [j, 0]) = r.value "path_samples/on_route" j := by
    rw [hat.other _ [P, 1] path_route_mem [j, 0]]
    simp [flatPos]
  unfold pathRecord Record.path
  rw [h3]
  congr 1
  apply List.map_congr_left
  intro k _
  dsimp only
  rw [h2, h2, h2, h1 "id" (by decide), h1 "valid" (by decide), h1 "arc_length" (by decide)]

theorem records_object (r : Record) (n : Nat) (i : Fin n) : (r.example n R).records i = r.object i := by
  unfold WomdExample.records Record.object Record.example
  congr 1

theorem records_light (r : Record) (n : Nat) (l : Fin 16) : (r.example n R).lightRecords l = r.light l := by
  unfold WomdExample.lightRecords Record.light Record.example
  congr 1

/-- A state loaded from the example of a record holds the record. -/
theorem holds_of_load {r : Record} {n : Nat} {s : SimState ℝ n 91} (h : loadWomd (r.example n R) = .ok { s with sdcPaths := none })
    (hp : s.sdcPaths = paths.map fun q => (List.range q.1).map (r.path q.2)) : HoldsRecord R paths r s := by
  obtain ⟨s1, e1, g1⟩ := C90_log (r.example n R)
  obtain ⟨s2, e2, g2⟩ := C90_sizes (r.example n R)
  obtain ⟨s3, e3, g3, g3', g3''⟩ := C90_start (r.example n R)
  obtain ⟨s4, e4, g4, g4'⟩ := C90_lights (r.example n R)
  obtain ⟨s5, e5, -, g5, rg, g6, g7, g8⟩ := C90_rest (r.example n R)
  have k1 := Except.ok.inj (h.symm.trans e1)
  have k2 := Except.ok.inj (h.symm.trans e2)
  have k3 := Except.ok.inj (h.symm.trans e3)
  have k4 := Except.ok.inj (h.symm.trans e4)
  have k5 := Except.ok.inj (h.symm.trans e5)
  subst k1 k2 k3 k4 k5
  have m1 : ∀ x : ℝ, (if x = 1 then 1 else if x = -1 then -1 else (0 : Int)) = 1 ↔ x = 1 := by
    intro x
    have := mark_eq x 1 1 (.inl ⟨rfl, rfl⟩)
    rw [eqReal, decide_eq_decide] at this
    exact this.symm
  have m2 : ∀ x : ℝ, (if x = 1 then 1 else if x = -1 then -1 else (0 : Int)) = -1 ↔ x = -1 := by
    intro x
    have := mark_eq x (-1) (-1) (.inr ⟨rfl, rfl⟩)
    rw [eqReal, decide_eq_decide] at this
    exact this.symm
  have m3 : ∀ x : ℝ, (if x = 0 then (0 : Int) else 1) ≠ 0 ↔ x ≠ 0 := by
    intro x; by_cases h : x = 0 <;> simp [h]
  refine ⟨fun i t => ?_, fun i t => ?_, ⟨g3, fun i t => ⟨fun ht => ?_, fun ht => g3'' i t ht⟩⟩, ⟨g4, fun l t => ?_⟩, fun i => ?_, ⟨rg, g6, ?_⟩, hp⟩
  · obtain ⟨w, hw, hr⟩ := g1 i t
    rw [records_object] at hw
    exact ⟨w, hw, hr⟩
  · have := g2 i t
    rw [records_object] at this
    exact this
  · have : t = ⟨0, by decide⟩ := Fin.ext ht
    subst this
    exact g3' i
  · obtain ⟨w, hw, hr⟩ := g4' l t
    rw [records_light] at hw
    exact ⟨w, hw, hr⟩
  · have := g5 i
    simp only [Record.example, m1, m2, ne_eq] at this
    exact this
  · have hroad : (r.example n R).roadgraph = (List.range R).map r.point := rfl
    have hR : rg.length = R := by rw [g7, hroad]; simp
    refine ⟨hR, fun k => ?_⟩
    have := g8 k.val (by rw [hR]; exact k.isLt) (by rw [← g7, hR]; exact k.isLt)
    dsimp only at this
    rw [List.getElem_of_eq hroad, List.getElem_map, List.getElem_range] at this
    obtain ⟨a1, a2, a3, a4, a5⟩ := this
    exact ⟨a1, a2, a3, a4, a5.trans (m3 _)⟩

/-- The shapes of everything in a batched state. -/
structure StateShape (S : StateNd ℝ) (pre : List Nat) (n T L R : Nat) (paths : Option (Nat × Nat)) : Prop where
  shaped : S.Shaped pre n T
  time : S.timestep.shape = pre
  lights : S.logTrafficLight.shape = pre ++ [L, T]
  map : ∃ rg, S.roadgraphPoints = some rg ∧ rg.shape = pre ++ [R]
  paths : S.sdcPaths.map (fun q => (q.1.shape, q.2.shape)) = paths.map fun q => (pre ++ [q.1, q.2], pre ++ [q.1, 1])

/-- Conversion of a batch. -/
theorem convert_load {D : Feats} {pre : List Nat} (h : BatchShaped m R paths D pre) (hK : ∀ q, paths = some q → 1 ≤ q.2) :
    ∃ S, stateFromDict D paths.isSome = .ok S ∧ StateShape S pre (kept m 128) 91 16 R paths ∧
      ∀ p, InRange pre p → ∀ r, AtRecord R paths D p r → HoldsRecord R paths r (S.scenario (kept m 128) 91 p) := by
  have hw := shaped_womd h
  have hpaths : ∃ ps, sdcPathsFromDict D paths.isSome = .ok ps ∧
      ps.map (fun q => (q.1.shape, q.2.shape)) = (paths.map fun q => (pre ++ [q.1, q.2], pre ++ [q.1, 1])) ∧
      ∀ p, InRange pre p → ∀ r, AtRecord R paths D p r →
        (ps.map fun pts => (List.range (pts.1.shape.getD p.length 0)).map fun k =>
          ({ points := pts.1.rows (p ++ [k]), onRoute := pts.2.get (p ++ [k, 0]) } : SdcPath ℝ)) =
        paths.map fun q => (List.range q.1).map (r.path q.2) := by
    cases paths with
    | none => exact ⟨none, rfl, rfl, fun _ _ _ _ => rfl⟩
    | some q =>
      obtain ⟨P, K⟩ := q
      obtain ⟨ps, e, s1, s2, g⟩ := paths_load (shaped_paths h) (hK _ rfl)
      refine ⟨some ps, ?_, ?_, fun p hp r hat => ?_⟩
      · unfold sdcPathsFromDict
        rw [if_pos (show (some (P, K)).isSome = true from rfl), e]; rfl
      · simp only [Option.map_some, s1, s2]
      · simp only [Option.map_some, s1, show (pre ++ [P, K]).getD p.length 0 = P by simp [hp.length]]
        congr 1
        apply List.map_congr_left
        intro j _
        rw [g p hp j]
        exact path_at hat j
  obtain ⟨ps, h1, h2, h3⟩ := hpaths
  obtain ⟨S, e, hs, -, ht, hsp, hl, hrg, hload⟩ := state_load (by decide) hw (by decide) h1
  refine ⟨S, e, ⟨hs, ht, hl, hrg, by rw [hsp]; exact h2⟩, fun p hp r hat => holds_of_load ?_ ?_⟩
  · rw [← hload p hp]
    unfold loadWomd
    congr 1
    · funext i t; exact (entry_at hat _ i t).symm
    · funext t l; exact (light_at hat _ t l).symm
    · funext i; exact (meta_at hat _ i).symm
    · exact (point_at hat _).symm
  · show (S.sdcPaths.map _) = _
    rw [hsp]
    exact h3 p hp r hat

end

end Waymax
