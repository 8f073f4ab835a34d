import Verif.Props.ReadingLemmas
/-
C125: what an epoch contains. C126: whether every record is reached. C127: whether the order depends on the machine.
C128: what a shuffle seed does.
-/

namespace Waymax

variable {E R F : Type}

/-! ### Epochs -/

theorem shard_one (xs : List F) : shard 1 0 xs = xs := by
  unfold shard
  rw [List.filter_eq_self.2 (fun p _ => by simp [Nat.mod_one])]
  simp

theorem shuffle_closed {s : Source E} (hs : s.Closed) {B : Nat} (hB : 1 ≤ B) (random : Nat → Nat) : (shuffle B s random).Closed := by
  intro i hi
  by_contra hne
  have h1 := (buffer_pos hs hB random (i + 1)).1 (Option.isSome_iff_ne_none.2 hne)
  have h2 : s i = none := by
    by_contra h
    have := (buffer_pos hs hB random i).2 (Option.isSome_iff_ne_none.2 h)
    rw [hi] at this
    cases this
  rw [hs i h2] at h1
  cases h1

theorem shardRecords_closed (c : ReadConfig) (m : Machine) (read : F → List R) (files : List F) (sh : Nat)
    (hB : c.shuffleSeed ≠ none → 1 ≤ c.shuffleBufferSize) (hf : 1 ≤ m.fileCycle) : (shardRecords c m read files sh).Closed := by
  have hcl := repeat_closed (epochRecords_length c m read files sh hf) c.rep
  unfold shardRecords
  dsimp only
  cases hs : c.shuffleSeed with
  | none => exact hcl
  | some z => exact shuffle_closed hcl (hB (by rw [hs]; simp)) _

/-- One process with one shard and no batching reads its records one by one. -/
theorem one_shard (c : ReadConfig) (m : Machine) (read : F → List R) (files : List F) (P p : Nat) (hc : c.Legal) (hm : m.Legal)
    (hS : c.numShards = 1) (hb : c.batchSize = 1) :
    processBatches c m read files P p = (shardRecords c m read (shard P p files) 0).map fun r => [r] := by
  have hcl := shardRecords_closed c m read (shard P p files) 0 hc.buffer hm.file
  unfold processBatches
  simp only [hS, hb, List.range_one, List.map_cons, List.map_nil, batch_one, filesOf, shard_one]
  refine interleave_single hm.shard (fun i hi => ?_) _
  simp only [Source.map, Option.map_eq_none_iff] at hi ⊢
  exact hcl i hi

theorem flatten_map_single {n : Nat} (s : Source E) (g : Nat → Nat) :
    ((List.range n).filterMap fun i => (s.map fun r => [r]) (g i)).flatten = (List.range n).filterMap fun i => s (g i) := by
  generalize List.range n = l
  induction l with
  | nil => rfl
  | cons a l ih =>
    simp only [List.filterMap_cons, Source.map]
    cases s (g a) with
    | none => exact ih
    | some x => simpa [Source.map] using ih

/-- A single file is read from the beginning to the end. -/
theorem epoch_one_file (c : ReadConfig) (m : Machine) (read : F → List R) (f : F) (sh e : Nat) (hm : 1 ≤ m.fileCycle) :
    epochRecords c m read [f] sh e = read f := by
  unfold epochRecords
  rw [List.map_cons, List.map_nil, interleave_single hm (closed_ofList _)]
  simp only [List.flatMap_cons, List.flatMap_nil, List.append_nil]
  exact take_ofList _

theorem epoch_block (epochs : Nat → List E) {N : Nat} (hN : ∀ e, (epochs e).length = N) (count : Option Nat) (e : Nat)
    (he : ∀ k, count = some k → e < k) : (repeatSource count epochs).block N e = epochs e := by
  unfold Source.block
  have : ((List.range N).filterMap fun i => repeatSource count epochs (e * N + i)) =
      (List.range N).filterMap (Source.ofList (epochs e)) :=
    List.filterMap_congr fun i hi => repeat_at hN count e he i (List.mem_range.1 hi)
  rw [this, ← hN e, take_ofList]

/-- The full claim: cut into stretches as long as the data set, what is read has every record once in every stretch. -/
def EpochsWhole : Prop :=
  ∀ (F R : Type) (c : ReadConfig) (m : Machine) (read : F → List R) (files : List F) (P p : Nat), c.Legal → m.Legal →
    c.numShards = 1 → c.batchSize = 1 → ∀ e, (∀ k, c.rep = some k → e < k) →
      ((processBatches c m read files P p).block (ownRecords read files P p).length e).flatten.Perm (ownRecords read files P p)

/-- **C125**, without shuffling: in every epoch every record once, those of each file in their order. -/
theorem C125_unshuffled_partial (c : ReadConfig) (m : Machine) (read : F → List R) (files : List F) (P p : Nat) (hc : c.Legal) (hm : m.Legal)
    (hseed : c.shuffleSeed = none) (hS : c.numShards = 1) (hb : c.batchSize = 1) (e : Nat) (he : ∀ k, c.rep = some k → e < k) :
    ((processBatches c m read files P p).block (ownRecords read files P p).length e).flatten.Perm (ownRecords read files P p) ∧
      ∀ f ∈ shard P p files, (read f).Sublist
        ((processBatches c m read files P p).block (ownRecords read files P p).length e).flatten := by
  have hrw : ((processBatches c m read files P p).block (ownRecords read files P p).length e).flatten =
      epochRecords c m read (shard P p files) 0 e := by
    rw [one_shard c m read files P p hc hm hS hb]
    unfold Source.block
    rw [flatten_map_single]
    have := epoch_block _ (epochRecords_length c m read (shard P p files) 0 hm.file) c.rep e he
    unfold shardRecords
    rw [hseed]
    exact this
  rw [hrw]
  exact epochRecords_spec c m read (shard P p files) 0 hm.file e

/-- How often a record is in the first `e` epochs. -/
theorem count_epochs [DecidableEq E] (epochs : Nat → List E) {N : Nat} (hN : ∀ e, (epochs e).length = N) (xs : List E) (hnd : xs.Nodup)
    (hp : ∀ e, (epochs e).Perm xs) (r : E) (hr : r ∈ xs) (e : Nat) : ((repeatSource none epochs).take (e * N)).count r = e := by
  induction e with
  | zero => simp [Source.take]
  | succ e ih =>
    have : (repeatSource none epochs).take ((e + 1) * N) = (repeatSource none epochs).take (e * N) ++ epochs e := by
      rw [← epoch_block epochs hN none e (by simp)]
      unfold Source.take Source.block
      rw [Nat.succ_mul, List.range_add, List.filterMap_append, List.filterMap_map]
      rfl
    rw [this, List.count_append, ih, (hp e).count_eq, List.count_eq_one_of_mem hnd hr]

theorem take_sublist (s : Source E) {a b : Nat} (h : a ≤ b) : (s.take a).Sublist (s.take b) := by
  obtain ⟨d, rfl⟩ := Nat.exists_eq_add_of_le h
  unfold Source.take
  rw [List.range_add, List.filterMap_append]
  exact List.sublist_append_left _ _

/-- **C125**, with shuffling: of distinct records none is ever read more than about `B / N` times too often or `B` times too few, where
`N` is the number of records and `B` the size of the buffer. -/
theorem C125_shuffled_partial [DecidableEq R] (c : ReadConfig) (m : Machine) (read : F → List R) (files : List F) (P p : Nat) (hc : c.Legal)
    (hm : m.Legal) {seed : Int} (hseed : c.shuffleSeed = some seed) (hrep : c.rep = none) (hS : c.numShards = 1) (hb : c.batchSize = 1)
    (hnd : (ownRecords read files P p).Nodup) (r : R) (hr : r ∈ ownRecords read files P p) (k : Nat) :
    ((processBatches c m read files P p).take k).flatten.count r ≤ (k + c.shuffleBufferSize) / (ownRecords read files P p).length + 1 ∧
      k / (ownRecords read files P p).length ≤ ((processBatches c m read files P p).take k).flatten.count r + c.shuffleBufferSize := by
  have hl := epochRecords_length c m read (shard P p files) 0 hm.file
  have hcl := repeat_closed hl (none : Option Nat)
  have hsp := fun e => (epochRecords_spec c m read (shard P p files) 0 hm.file e).1
  have hpos : 0 < (ownRecords read files P p).length := List.length_pos_of_mem hr
  have he := repeat_endless hl hpos
  set N := (ownRecords read files P p).length with hN
  set s := repeatSource none (epochRecords c m read (shard P p files) 0) with hs
  have hcount : ∀ e, (s.take (e * N)).count r = e := count_epochs _ hl _ hnd hsp r hr
  have hrw : ((processBatches c m read files P p).take k).flatten = (shuffle c.shuffleBufferSize s (m.random 0)).take k := by
    rw [one_shard c m read files P p hc hm hS hb]
    unfold Source.take
    rw [flatten_map_single (g := fun i => i)]
    unfold shardRecords
    rw [hseed, hrep]
  rw [hrw]
  obtain ⟨held, n, h1, h2, h3⟩ := C124_lag hcl c.shuffleBufferSize (m.random 0) k
  have h4 := h3.count_eq r
  have h5 := h3.length_eq
  rw [List.count_append] at h4
  have hlen : ∀ n, (s.take n).length = n := fun n => filterMap_isSome_length fun i _ => he i
  have hlen' : ((shuffle c.shuffleBufferSize s (m.random 0)).take k).length = k :=
    filterMap_isSome_length fun i _ => (buffer_pos hcl (hc.buffer (by rw [hseed]; simp)) (m.random 0) i).2 (he i)
  rw [List.length_append, hlen, hlen'] at h5
  have h6 : held.count r ≤ held.length := List.count_le_length
  constructor
  · have : n ≤ ((k + c.shuffleBufferSize) / N + 1) * N := by
      have h7 := Nat.div_add_mod (k + c.shuffleBufferSize) N
      have h8 := Nat.mod_lt (k + c.shuffleBufferSize) hpos
      rw [Nat.add_mul, Nat.one_mul, Nat.mul_comm]
      omega
    have := (take_sublist s this).count_le r
    rw [hcount] at this
    omega
  · have : k / N * N ≤ n := (Nat.div_mul_le_self k N).trans (by omega)
    have := (take_sublist s this).count_le r
    rw [hcount] at this
    omega

example : ∃ (c : ReadConfig) (m : Machine), c.Legal ∧ m.Legal ∧ c.shuffleSeed = some 3 ∧ c.rep = none ∧ c.numShards = 1 ∧ c.batchSize = 1 ∧
    (ownRecords (fun f : Fin 2 => [(f, 0), (f, 1)]) [0, 1] 1 0).Nodup ∧ ((1 : Fin 2), 0) ∈ ownRecords (fun f : Fin 2 => [(f, 0), (f, 1)]) [0, 1] 1 0 :=
  ⟨{ shuffleSeed := some 3, shuffleBufferSize := 3, numShards := 1 }, ⟨2, 4, fun _ _ _ => 1, fun _ => 0, fun _ k => k⟩,
    ⟨by decide, fun _ => by decide, by decide⟩, ⟨by decide, by decide⟩, rfl, rfl, rfl, rfl, by decide, by decide⟩

/-- **C125 fails**: the repetition comes before the shuffle, so a record can come twice before another has come at all. -/
theorem C125_violated : ¬ EpochsWhole := by
  intro h
  let c : ReadConfig := { shuffleSeed := some 1, shuffleBufferSize := 2, numShards := 1 }
  let m : Machine := ⟨1, 1, fun _ _ _ => 0, fun _ => 0, fun _ k => k⟩
  have hc : c.Legal := ⟨le_refl _, fun _ => by decide, le_refl _⟩
  have hm : m.Legal := ⟨le_refl _, le_refl _⟩
  have := h Unit (Fin 2) c m (fun _ => [0, 1]) [()] 1 0 hc hm rfl rfl 0 (by rintro k hk; cases hk)
  rw [one_shard c m _ _ 1 0 hc hm rfl rfl, shard_one] at this
  have hsr : shardRecords c m (fun _ : Unit => [(0 : Fin 2), 1]) [()] 0 =
      shuffle 2 (repeatSource none fun _ => [(0 : Fin 2), 1]) (fun k => k) := by
    unfold shardRecords
    have : epochRecords c m (fun _ : Unit => [(0 : Fin 2), 1]) [()] 0 = fun _ => [(0 : Fin 2), 1] :=
      funext fun e => epoch_one_file c m _ () 0 e hm.file
    rw [this]
  rw [hsr] at this
  revert this
  unfold ownRecords
  rw [shard_one]
  decide

/-! ### Reaching every record -/

/-- **C126**, finitely many epochs: whatever the machine does, the process returns batches as `ProcessReturns` describes, so that all the
statements about it hold. -/
theorem C126_finite (c : ReadConfig) (m : Machine) (read : F → List R) (files : List F) (P p : Nat) {k : Nat} (hc : c.Legal) (hm : m.Legal)
    (hrep : c.rep = some k) : ∃ out, processBatches c m read files P p = Source.ofList out ∧
      ProcessReturns read (fun r => [r]) k [c.batchSize] c.dropRemainder files P p c.numShards (out.map asElem) :=
  processBatches_returns c m read files P p hrep hc.batch hc.buffer hm.file hm.shard

theorem mem_shard_split {files : List F} {P p S : Nat} (hS : 1 ≤ S) {f : F} (hf : f ∈ shard P p files) :
    ∃ s < S, f ∈ filesOf files P p S s := by
  have := (shards_perm (shard P p files) hS).mem_iff.2 hf
  obtain ⟨s, hs, h⟩ := List.mem_flatMap.1 this
  exact ⟨s, List.mem_range.1 hs, h⟩

/-- Unshuffled, every record of a shard is read again and again. -/
theorem shard_again (c : ReadConfig) (m : Machine) (read : F → List R) (files : List F) (sh : Nat) (hm : 1 ≤ m.fileCycle)
    (hrep : c.rep = none) (hseed : c.shuffleSeed = none) {r : R} (hr : r ∈ files.flatMap read) :
    (shardRecords c m read files sh).Again (· = r) := by
  intro n
  have hl := epochRecords_length c m read files sh hm
  have hpos : 0 < (files.flatMap read).length := List.length_pos_of_mem hr
  obtain ⟨i, hi, hri⟩ := List.getElem_of_mem ((epochRecords_spec c m read files sh hm n).1.mem_iff.2 hr)
  rw [hl] at hi
  refine ⟨n * (files.flatMap read).length + i, ?_, r, ?_, rfl⟩
  · have := Nat.le_mul_of_pos_right n hpos
    omega
  · unfold shardRecords
    rw [hseed, hrep]
    dsimp only
    rw [repeat_at hl none n (by simp) i hi, List.getElem?_eq_getElem (by rw [hl]; exact hi), hri]

/-- The full claim: reading without end and without randomness, every record of every file of the process is returned again and again. -/
def EveryRecordRead : Prop :=
  ∀ (F R : Type) (c : ReadConfig) (m : Machine) (read : F → List R) (files : List F) (P p : Nat), c.Legal → m.Legal → c.rep = none →
    c.deterministic = true → c.shuffleSeed = none → ∀ r ∈ ownRecords read files P p, (processBatches c m read files P p).Again (r ∈ ·)

/-- **C126**, endless reading, when there are not more shards than can be open at a time. -/
theorem C126_fair_partial (c : ReadConfig) (m : Machine) (read : F → List R) (files : List F) (P p : Nat) (hc : c.Legal) (hm : m.Legal)
    (hrep : c.rep = none) (hdet : c.deterministic = true) (hseed : c.shuffleSeed = none) (hslots : c.numShards ≤ m.shardCycle) (r : R)
    (hr : r ∈ ownRecords read files P p) : (processBatches c m read files P p).Again (r ∈ ·) := by
  obtain ⟨f, hf, hrf⟩ := List.mem_flatMap.1 hr
  obtain ⟨s, hs, hfs⟩ := mem_shard_split hc.shards hf
  have hrs : r ∈ (filesOf files P p c.numShards s).flatMap read := List.mem_flatMap.2 ⟨f, hfs, hrf⟩
  have hend := shardRecords_endless c m read (filesOf files P p c.numShards s) s hm.file hrep hc.buffer (List.ne_nil_of_mem hrs)
  have hag := batch_again hc.batch c.dropRemainder hend (shard_again c m read _ s hm.file hrep hseed hrs)
  unfold processBatches
  rw [if_pos hdet]
  have := interleave_again ((List.range c.numShards).map fun s =>
      batchSource c.batchSize c.dropRemainder (shardRecords c m read (filesOf files P p c.numShards s) s)) m.shardCycle (by simpa using hslots)
    _ (List.mem_map_of_mem (List.mem_range.2 hs)) (fun j => by rw [batch_endless hc.batch _ hend]; rfl) _ hag
  intro n
  obtain ⟨k, hk, b, hb, x, hx, rfl⟩ := this n
  exact ⟨k, hk, b, hb, hx⟩

/-- Interleaving returns only elements of its inputs. -/
theorem interleave_mem (cy : Nat) (inputs : List (Source E)) (turn : Nat → Nat) {k : Nat} {x : E} (h : interleave cy inputs turn k = some x) :
    ∃ s ∈ inputs, ∃ j, s j = some x := by
  rw [interleave_eq] at h
  have key : ∀ k, ∀ t ∈ inputsLeft (stateFrom (List.replicate cy none, inputs) turn k).1 (stateFrom (List.replicate cy none, inputs) turn k).2,
      ∃ s ∈ inputs, ∃ d, ∀ j, t j = s (d + j) := by
    intro k
    induction k with
    | zero =>
      intro t ht
      simp only [stateFrom, inputsLeft_start] at ht
      exact ⟨t, ht, 0, fun j => by rw [Nat.zero_add]⟩
    | succ k ih =>
      intro t ht
      rw [stateFrom] at ht
      unfold nextState at ht
      rcases hp : pull ((stateFrom (List.replicate cy none, inputs) turn k).1.rotate (turn k))
        (stateFrom (List.replicate cy none, inputs) turn k).2 with _ | ⟨y, s', w'⟩
      · rw [hp] at ht
        simp [inputsLeft] at ht
      · rw [hp] at ht
        obtain ⟨-, u, rest, ended, h1, h2, h3, -⟩ := pull_some hp
        have hin : ∀ v ∈ ended ++ u :: rest, ∃ s ∈ inputs, ∃ d, ∀ j, v j = s (d + j) := fun v hv =>
          ih v ((inputsLeft_rotate _ _ _).mem_iff.1 (h2.mem_iff.2 hv))
        rcases List.mem_cons.1 (h3.mem_iff.1 ht) with rfl | ht
        · obtain ⟨s, hs, d, hd⟩ := hin u (by simp)
          exact ⟨s, hs, d + 1, fun j => by rw [Source.rest, hd]; congr 1; omega⟩
        · exact hin t (by simp [ht])
  unfold outFrom at h
  rcases hp : pull ((stateFrom (List.replicate cy none, inputs) turn k).1.rotate (turn k))
    (stateFrom (List.replicate cy none, inputs) turn k).2 with _ | ⟨y, s', w'⟩
  · rw [hp] at h; cases h
  · rw [hp] at h
    simp only [Option.map_some, Option.some.injEq] at h
    subst h
    obtain ⟨-, u, rest, ended, h1, h2, -⟩ := pull_some hp
    obtain ⟨s, hs, d, hd⟩ := key k u ((inputsLeft_rotate _ _ _).mem_iff.1 (h2.mem_iff.2 (by simp)))
    exact ⟨s, hs, d, by rw [← h1, hd 0, Nat.add_zero]⟩

/-- A shard returns only records of its files. -/
theorem shardRecords_mem (c : ReadConfig) (m : Machine) (read : F → List R) (files : List F) (sh : Nat) (hm : 1 ≤ m.fileCycle)
    (hB : c.shuffleSeed ≠ none → 1 ≤ c.shuffleBufferSize) {k : Nat} {r : R} (h : shardRecords c m read files sh k = some r) :
    r ∈ files.flatMap read := by
  have hl := epochRecords_length c m read files sh hm
  have hrep : ∀ k, repeatSource c.rep (epochRecords c m read files sh) k = some r → r ∈ files.flatMap read := by
    intro k hk
    cases hr : c.rep with
    | none =>
      rw [hr] at hk
      exact (epochRecords_spec c m read files sh hm _).1.mem_iff.1 (List.mem_of_getElem? hk)
    | some n =>
      rw [hr] at hk
      obtain ⟨e, -, he⟩ := List.mem_flatMap.1 (List.mem_of_getElem? hk)
      exact (epochRecords_spec c m read files sh hm _).1.mem_iff.1 he
  unfold shardRecords at h
  cases hs : c.shuffleSeed with
  | none => rw [hs] at h; exact hrep k h
  | some z =>
    rw [hs] at h
    dsimp only at h
    have hB' := hB (by rw [hs]; simp)
    have hcl := repeat_closed hl c.rep
    obtain ⟨σ, hσ⟩ := C124_shuffle hcl hB' (m.random sh)
    have hsome := (buffer_pos hcl hB' (m.random sh) k).1 (by rw [h]; rfl)
    have := ((hσ k).2 hsome).2.1
    rw [h] at this
    exact hrep _ this.symm

/-- **What the open shards leave to the others: nothing.** With more shards than can be open at a time, endless reading returns only
records of the first ones. -/
theorem C126_starved (c : ReadConfig) (m : Machine) (read : F → List R) (files : List F) (P p : Nat) (hc : c.Legal) (hm : m.Legal)
    (hrep : c.rep = none) (hle : m.shardCycle ≤ c.numShards)
    (hne : ∀ s < m.shardCycle, (filesOf files P p c.numShards s).flatMap read ≠ []) {k : Nat} {b : List R}
    (hk : processBatches c m read files P p k = some b) (r : R) (hr : r ∈ b) :
    ∃ s < m.shardCycle, r ∈ (filesOf files P p c.numShards s).flatMap read := by
  obtain ⟨d, hd⟩ := Nat.exists_eq_add_of_le hle
  let src : Nat → Source (List R) := fun s =>
    batchSource c.batchSize c.dropRemainder (shardRecords c m read (filesOf files P p c.numShards s) s)
  have hend : ∀ s ∈ (List.range m.shardCycle).map src, s.Endless := by
    intro s hs
    obtain ⟨i, hi, rfl⟩ := List.mem_map.1 hs
    intro j
    show (batchSource c.batchSize c.dropRemainder (shardRecords c m read (filesOf files P p c.numShards i) i) j).isSome
    rw [batch_endless hc.batch _ (shardRecords_endless c m read _ i hm.file hrep hc.buffer (hne i (List.mem_range.1 hi)))]
    rfl
  have hb := interleave_behind ((List.range m.shardCycle).map src) ((List.range d).map fun i => src (m.shardCycle + i)) hend
    (if c.deterministic then fun _ => 0 else m.shardTurn)
  have hsplit : (List.range c.numShards).map src =
      (List.range m.shardCycle).map src ++ (List.range d).map fun i => src (m.shardCycle + i) := by
    rw [hd, List.range_add, List.map_append, List.map_map]
    rfl
  unfold processBatches at hk
  rw [show ((List.range c.numShards).map fun s => batchSource c.batchSize c.dropRemainder
    (shardRecords c m read (filesOf files P p c.numShards s) s)) = (List.range c.numShards).map src from rfl, hsplit] at hk
  rw [List.length_map, List.length_range] at hb
  rw [hb] at hk
  obtain ⟨s, hs, j, hj⟩ := interleave_mem _ _ _ hk
  obtain ⟨i, hi, rfl⟩ := List.mem_map.1 hs
  refine ⟨i, List.mem_range.1 hi, ?_⟩
  rw [show src i = batchSource c.batchSize c.dropRemainder (shardRecords c m read (filesOf files P p c.numShards i) i) from rfl,
    batch_endless hc.batch _ (shardRecords_endless c m read _ i hm.file hrep hc.buffer (hne i (List.mem_range.1 hi)))] at hj
  cases hj
  obtain ⟨q, -, hq⟩ := List.mem_filterMap.1 hr
  exact shardRecords_mem c m read _ i hm.file hc.buffer hq

/-- **C126 fails** with more shards than TensorFlow opens at a time: two shards with a file each, one open. -/
theorem C126_violated : ¬ EveryRecordRead := by
  intro h
  let c : ReadConfig := { numShards := 2 }
  let m : Machine := ⟨1, 1, fun _ _ _ => 0, fun _ => 0, fun _ _ => 0⟩
  have hc : c.Legal := ⟨le_refl _, fun h => absurd rfl h, by decide⟩
  have hm : m.Legal := ⟨le_refl _, le_refl _⟩
  obtain ⟨k, -, b, hb, h1⟩ := h (Fin 2) (Fin 2) c m (fun f => [f]) [0, 1] 1 0 hc hm rfl rfl rfl 1 (by decide) 0
  obtain ⟨s, hs, hr⟩ := C126_starved c m (fun f => [f]) [0, 1] 1 0 hc hm rfl (by decide)
    (fun s hs => by
      have : s = 0 := by change s < 1 at hs; omega
      subst this
      decide) hb 1 h1
  have : s = 0 := by change s < 1 at hs; omega
  subst this
  revert hr
  decide

example : ∃ (c : ReadConfig) (m : Machine), c.Legal ∧ m.Legal ∧ c.rep = none ∧ c.deterministic = true ∧ c.shuffleSeed = none ∧
    c.numShards ≤ m.shardCycle ∧ (2 : Fin 3) ∈ ownRecords (fun f : Fin 3 => [f]) [0, 1, 2] 1 0 :=
  ⟨{ numShards := 2, batchSize := 2 }, ⟨1, 2, fun _ _ _ => 0, fun _ => 0, fun _ _ => 0⟩,
    ⟨by decide, fun h => absurd rfl h, by decide⟩, ⟨by decide, by decide⟩, rfl, rfl, rfl, by decide, by decide⟩

/-! ### The machine -/

/-- The full claim: with deterministic reading the same settings give the same batches in the same order on every machine. -/
def SameEverywhere : Prop :=
  ∀ (F R : Type) (c : ReadConfig) (m m' : Machine) (read : F → List R) (files : List F) (P p : Nat), c.Legal → m.Legal → m'.Legal →
    c.deterministic = true → m.random = m'.random → processBatches c m read files P p = processBatches c m' read files P p

/-- **C127**, when on both machines all files of a shard and all shards can be open at a time. -/
theorem C127_enough_slots_partial (c : ReadConfig) (m m' : Machine) (read : F → List R) (files : List F) (P p : Nat)
    (hdet : c.deterministic = true) (hrand : m.random = m'.random)
    (hfile : ∀ s < c.numShards, (filesOf files P p c.numShards s).length ≤ m.fileCycle)
    (hfile' : ∀ s < c.numShards, (filesOf files P p c.numShards s).length ≤ m'.fileCycle)
    (hshard : c.numShards ≤ m.shardCycle) (hshard' : c.numShards ≤ m'.shardCycle) :
    processBatches c m read files P p = processBatches c m' read files P p := by
  have hrec : ∀ s < c.numShards, shardRecords c m read (filesOf files P p c.numShards s) s =
      shardRecords c m' read (filesOf files P p c.numShards s) s := by
    intro s hs
    have : epochRecords c m read (filesOf files P p c.numShards s) s = epochRecords c m' read (filesOf files P p c.numShards s) s := by
      funext e
      unfold epochRecords
      simp only [hdet, if_true]
      rw [interleave_cycle _ m.fileCycle m'.fileCycle (by simpa using hfile s hs) (by simpa using hfile' s hs)]
    unfold shardRecords
    rw [this, hrand]
  unfold processBatches
  simp only [hdet, if_true]
  rw [List.map_congr_left fun s hs => by rw [hrec s (List.mem_range.1 hs)]]
  exact interleave_cycle _ _ _ (by simpa using hshard) (by simpa using hshard')

/-- **C127**, a single file and a single shard: the file is read from the beginning to the end again and again, whatever the machine. -/
theorem C127_one_file_partial (c : ReadConfig) (m : Machine) (read : F → List R) (f : F) (hc : c.Legal) (hm : m.Legal) (hS : c.numShards = 1)
    (hb : c.batchSize = 1) (hseed : c.shuffleSeed = none) (hrep : c.rep = none) (k : Nat) :
    processBatches c m read [f] 1 0 k = (read f)[k % (read f).length]?.map fun r => [r] := by
  rw [one_shard c m read [f] 1 0 hc hm hS hb, shard_one]
  unfold shardRecords
  have : epochRecords c m read [f] 0 = fun _ => read f := funext fun e => epoch_one_file c m read f 0 e hm.file
  rw [hseed, hrep, this]
  rfl

/-- **C127 fails**: with two files, a machine that opens one at a time reads the first to its end, one that opens both alternates. -/
theorem C127_violated : ¬ SameEverywhere := by
  intro h
  let c : ReadConfig := { numShards := 1 }
  let m : Machine := ⟨1, 1, fun _ _ _ => 0, fun _ => 0, fun _ _ => 0⟩
  let m' : Machine := ⟨2, 1, fun _ _ _ => 0, fun _ => 0, fun _ _ => 0⟩
  have hc : c.Legal := ⟨le_refl _, fun h => absurd rfl h, by decide⟩
  have hm : m.Legal := ⟨le_refl _, le_refl _⟩
  have hm' : m'.Legal := ⟨by decide, le_refl _⟩
  have := congrFun (h (Fin 2) (Fin 2 × Fin 2) c m m' (fun f => [(f, 0), (f, 1)]) [0, 1] 1 0 hc hm hm' rfl rfl) 1
  rw [one_shard c m _ _ 1 0 hc hm rfl rfl, one_shard c m' _ _ 1 0 hc hm' rfl rfl, shard_one] at this
  revert this
  simp [shardRecords, repeatSource, epochRecords, Source.map, Source.take, interleave, interleaveAt, pull, Source.ofList, Source.rest, c, m, m',
    List.range_succ]

example : ∃ (c : ReadConfig) (m m' : Machine), c.Legal ∧ m.Legal ∧ m'.Legal ∧ c.deterministic = true ∧ m.random = m'.random ∧
    m.fileCycle ≠ m'.fileCycle ∧ (∀ s < c.numShards, (filesOf [(0 : Fin 3), 1, 2] 1 0 c.numShards s).length ≤ m.fileCycle) ∧
    (∀ s < c.numShards, (filesOf [(0 : Fin 3), 1, 2] 1 0 c.numShards s).length ≤ m'.fileCycle) ∧ c.numShards ≤ m.shardCycle :=
  ⟨{ numShards := 2 }, ⟨2, 2, fun _ _ _ => 0, fun _ => 0, fun _ k => k⟩, ⟨3, 4, fun _ _ _ => 0, fun _ => 0, fun _ k => k⟩,
    ⟨by decide, fun h => absurd rfl h, by decide⟩, ⟨by decide, by decide⟩, ⟨by decide, by decide⟩, rfl, rfl, by decide, by decide, by decide, by decide⟩

/-! ### Seeds -/

/-- **C128**: with the same seed every process puts the files in the same order, whatever it has drawn from `random` before. -/
theorem C128_same_order (py : PyRandom F) (seed : Option Int) (files : List F) (st st' : py.State) :
    (orderFiles py seed files st).1 = (orderFiles py seed files st').1 ∧ (orderFiles py seed files st).1.Perm files := by
  unfold orderFiles
  cases seed with
  | none => exact ⟨rfl, List.Perm.refl _⟩
  | some s =>
    dsimp only
    split_ifs
    · exact ⟨rfl, List.Perm.refl _⟩
    · exact ⟨rfl, py.perm _ _⟩

/-- **C128**: so every file is read by exactly one shard of exactly one process, though every process shuffles by itself. -/
theorem C128_one_reader [DecidableEq F] (py : PyRandom F) (seed : Option Int) (files : List F) (hnd : files.Nodup) (P S : Nat) (hP : 1 ≤ P)
    (hS : 1 ≤ S) (st : Nat → py.State) (f : F) (hf : f ∈ files) :
    ∃ p s, p < P ∧ s < S ∧ (filesOf (orderFiles py seed files (st p)).1 P p S s).count f = 1 ∧
      ∀ p' s', p' < P → s' < S → f ∈ filesOf (orderFiles py seed files (st p')).1 P p' S s' → p' = p ∧ s' = s := by
  have hsame : ∀ p, (orderFiles py seed files (st p)).1 = (orderFiles py seed files (st 0)).1 := fun p =>
    (C128_same_order py seed files (st p) (st 0)).1
  obtain ⟨p, s, h1, h2, h3, h4⟩ := C56_one_reader files _ (C128_same_order py seed files (st 0) (st 0)).2 hnd P S hP hS f hf
  refine ⟨p, s, h1, h2, by rw [hsame]; exact h3, fun p' s' hp hs h => h4 p' s' hp hs (by rw [← hsame p']; exact h)⟩

/-- Every record of the data set is one of the records of some process. -/
theorem C128_all_records (py : PyRandom F) (seed : Option Int) (read : F → List R) (files : List F) (P : Nat) (hP : 1 ≤ P)
    (st : Nat → py.State) :
    ((List.range P).flatMap fun p => ownRecords read (orderFiles py seed files (st p)).1 P p).Perm (files.flatMap read) := by
  have hsame : ∀ p, (orderFiles py seed files (st p)).1 = (orderFiles py seed files (st 0)).1 := fun p =>
    (C128_same_order py seed files (st p) (st 0)).1
  simp only [hsame, ownRecords]
  rw [← List.flatMap_assoc]
  exact ((shards_perm _ hP).trans (C128_same_order py seed files (st 0) (st 0)).2).flatMap_right read

/-- A generator of random numbers for the examples: the state is a number, a shuffle rotates by it. -/
def rotatingRandom (F : Type) : PyRandom F where
  State := Nat
  seed := Int.toNat
  shuffle st xs := (xs.rotate st, st + 1)
  perm st xs := List.rotate_perm xs st

example : (orderFiles (rotatingRandom (Fin 3)) (some 1) [0, 1, 2] (5 : Nat)).1 = [1, 2, 0] := by decide

/-- The full claim: a seed shuffles the files. -/
def SeedShufflesFiles : Prop :=
  ∀ (F : Type) (py : PyRandom F) (seed : Int) (files : List F) (st : py.State),
    (orderFiles py (some seed) files st).1 = (py.shuffle (py.seed seed) files).1

/-- The full claim: building a data set does not disturb the random numbers of the program around it. -/
def LeavesRandomAlone : Prop :=
  ∀ (F : Type) (py : PyRandom F) (seed : Option Int) (files : List F) (st : py.State), (orderFiles py seed files st).2 = st

/-- **C129**, for a seed that is not 0 the files are shuffled; the records are shuffled for every seed. -/
theorem C129_nonzero_partial (py : PyRandom F) (seed : Int) (hs : seed ≠ 0) (files : List F) (st : py.State) :
    (orderFiles py (some seed) files st).1 = (py.shuffle (py.seed seed) files).1 := by
  simp [orderFiles, hs]

/-- **C129 fails** for seed 0: the files stay in their order. -/
theorem C129_zero_violated : ¬ SeedShufflesFiles := by
  intro h
  let py : PyRandom (Fin 2) := ⟨Unit, fun _ => (), fun _ xs => (xs.reverse, ()), fun _ xs => List.reverse_perm xs⟩
  have := h (Fin 2) py 0 [0, 1] ()
  revert this
  decide

/-- Without a seed, or with seed 0, the global random numbers are left alone. -/
theorem C129_unseeded_partial (py : PyRandom F) (seed : Option Int) (hs : seed = none ∨ seed = some 0) (files : List F) (st : py.State) :
    (orderFiles py seed files st) = (files, st) := by
  rcases hs with rfl | rfl <;> simp [orderFiles]

/-- **C129 fails** for the global random numbers: after building a data set with a seed they no longer depend on what was before, so
two programs that seeded differently continue alike. -/
theorem C129_global_violated : ¬ LeavesRandomAlone := by
  intro h
  have : (8 : Nat) = 3 := h (Fin 2) (rotatingRandom (Fin 2)) (some 7) [0, 1] (3 : Nat)
  omega

/-- What the random numbers are afterwards. -/
theorem C129_global (py : PyRandom F) (seed : Int) (hs : seed ≠ 0) (files : List F) (st st' : py.State) :
    (orderFiles py (some seed) files st).2 = (orderFiles py (some seed) files st').2 := by
  simp [orderFiles, hs]

end Waymax
