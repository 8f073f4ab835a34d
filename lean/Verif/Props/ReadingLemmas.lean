import Verif.Props.Interleave
import Verif.Props.Dataset
/-
Lemmas about the reading pipeline: epochs, batches, shards, and that what it returns is what `Model/Dataset.lean` allows.
-/

namespace Waymax

variable {E R F : Type}

theorem inputsLeft_start (c : Nat) (inputs : List (Source E)) : inputsLeft (List.replicate c none) inputs = inputs := by
  unfold inputsLeft
  rw [List.filterMap_replicate_of_none rfl, List.nil_append]

/-- Interleaving finite inputs. -/
theorem interleave_finite {c : Nat} (hc : 1 ≤ c) (ls : List (List E)) (turn : Nat → Nat) :
    ∃ out, interleave c (ls.map Source.ofList) turn = Source.ofList out ∧ out.Perm ls.flatten ∧ ∀ l ∈ ls, l.Sublist out := by
  rw [interleave_eq]
  refine outFrom_finite _ (fun h => ?_) turn ls (by rw [inputsLeft_start])
  have : c = 0 := by simpa using h
  omega

/-- Interleaving a single input. -/
theorem interleave_single {c : Nat} (hc : 1 ≤ c) {s : Source E} (hs : s.Closed) (turn : Nat → Nat) : interleave c [s] turn = s := by
  rw [interleave_eq]
  suffices key : ∀ k (s : Source E) (_ : s.Closed) (st : List (Option (Source E)) × List (Source E)) (turn : Nat → Nat),
      (st.1 = [] → st.2 = []) → inputsLeft st.1 st.2 = [s] → outFrom st turn k = s k from
    funext fun k => key k s hs _ turn (fun h => by
      have : c = 0 := by simpa using h
      omega) (inputsLeft_start c [s])
  intro k
  induction k with
  | zero =>
    intro s hs st turn hc hl
    have hp := (inputsLeft_rotate st.1 (turn 0) st.2).trans (List.Perm.of_eq hl)
    simp only [outFrom, stateFrom]
    rcases h : pull (st.1.rotate (turn 0)) st.2 with _ | ⟨x, s', w'⟩
    · have := pull_none (fun h => hc (List.rotate_eq_nil_iff.1 h)) h s (hp.mem_iff.2 (by simp))
      rw [this]; rfl
    · obtain ⟨-, t, rest, ended, h1, h2, -⟩ := pull_some h
      have : t = s := by simpa using (h2.symm.trans hp).mem_iff.1 (show t ∈ ended ++ t :: rest by simp)
      rw [← this, h1]; rfl
  | succ k ih =>
    intro s hs st turn hc hl
    have hp := (inputsLeft_rotate st.1 (turn 0) st.2).trans (List.Perm.of_eq hl)
    rw [outFrom_succ]
    rcases h : pull (st.1.rotate (turn 0)) st.2 with _ | ⟨x, s', w'⟩
    · have h0 := pull_none (fun h => hc (List.rotate_eq_nil_iff.1 h)) h s (hp.mem_iff.2 (by simp))
      have hn : nextState (turn 0) st = ([], []) := by unfold nextState; rw [h]
      rw [hn, outFrom_nil, hs.le (Nat.zero_le _) h0]
    · obtain ⟨hne, t, rest, ended, h1, h2, h3, -⟩ := pull_some h
      have hlen := (h2.symm.trans hp).length_eq
      simp only [List.length_append, List.length_cons, List.length_nil] at hlen
      have hr : rest = [] := List.eq_nil_of_length_eq_zero (by omega)
      have : t = s := by simpa using (h2.symm.trans hp).mem_iff.1 (show t ∈ ended ++ t :: rest by simp)
      subst this
      subst hr
      have hn : nextState (turn 0) st = (s', w') := by unfold nextState; rw [h]
      rw [hn, ih t.rest (fun i hi => hs (i + 1) hi) (s', w') _ (fun h => absurd h hne) (List.perm_singleton.1 h3)]
      rfl

/-! ### Epochs -/

section
variable (c : ReadConfig) (m : Machine) (read : F → List R) (files : List F) (sh : Nat)

/-- One epoch of a shard has all its records, those of each file in their order. -/
theorem epochRecords_spec (hm : 1 ≤ m.fileCycle) (e : Nat) :
    (epochRecords c m read files sh e).Perm (files.flatMap read) ∧ ∀ f ∈ files, (read f).Sublist (epochRecords c m read files sh e) := by
  obtain ⟨out, h1, h2, h3⟩ := interleave_finite hm (files.map read) (if c.deterministic then fun _ => 0 else m.fileTurn sh e)
  have he : epochRecords c m read files sh e = out := by
    unfold epochRecords
    rw [show (files.map fun f => Source.ofList (read f)) = (files.map read).map Source.ofList by rw [List.map_map]; rfl, h1]
    have hl : (files.flatMap read).length = out.length := by rw [h2.length_eq, List.flatMap_def]
    rw [hl]
    exact take_ofList out
  rw [he]
  exact ⟨by rw [List.flatMap_def]; exact h2, fun f hf => h3 _ (List.mem_map_of_mem hf)⟩

theorem epochRecords_length (hm : 1 ≤ m.fileCycle) (e : Nat) :
    (epochRecords c m read files sh e).length = (files.flatMap read).length := (epochRecords_spec c m read files sh hm e).1.length_eq

end

/-- Element `i` of epoch `e`. -/
theorem repeat_at {epochs : Nat → List E} {N : Nat} (hN : ∀ e, (epochs e).length = N) (count : Option Nat) (e : Nat)
    (he : ∀ k, count = some k → e < k) (i : Nat) (hi : i < N) : repeatSource count epochs (e * N + i) = (epochs e)[i]? := by
  cases count with
  | none =>
    simp only [repeatSource]
    rw [hN 0, Nat.mul_comm e N, Nat.mul_add_div (by omega), Nat.mul_add_mod, Nat.div_eq_of_lt hi, Nat.mod_eq_of_lt hi, Nat.add_zero]
  | some k =>
    simp only [repeatSource, Source.ofList]
    have hk := he k rfl
    induction k generalizing e with
    | zero => omega
    | succ k ih =>
      have hlen : ((List.range k).flatMap epochs).length = k * N := by
        rw [List.length_flatMap]
        simp [hN]
      rw [List.range_succ, List.flatMap_append]
      by_cases h : e < k
      · rw [List.getElem?_append_left (by rw [hlen]; calc
          e * N + i < e * N + N := by omega
          _ = (e + 1) * N := by ring
          _ ≤ k * N := Nat.mul_le_mul_right _ h)]
        exact ih e (fun _ hk => by cases hk; exact h) h
      · have : e = k := by omega
        subst this
        rw [List.getElem?_append_right (by rw [hlen]; omega), hlen, Nat.add_sub_cancel_left]
        simp

theorem repeat_closed {epochs : Nat → List E} {N : Nat} (hN : ∀ e, (epochs e).length = N) (count : Option Nat) :
    (repeatSource count epochs).Closed := by
  cases count with
  | some k => exact closed_ofList _
  | none =>
    intro i hi
    rcases Nat.eq_zero_or_pos N with h0 | hpos
    · have hnil : ∀ e, epochs e = [] := fun e => List.eq_nil_of_length_eq_zero (by rw [hN, h0])
      simp [repeatSource, hnil]
    · simp only [repeatSource, hN 0] at hi
      rw [List.getElem?_eq_none_iff, hN] at hi
      exact absurd (Nat.mod_lt i hpos) (by omega)

theorem repeat_endless {epochs : Nat → List E} {N : Nat} (hN : ∀ e, (epochs e).length = N) (hpos : 1 ≤ N) :
    (repeatSource none epochs).Endless := by
  intro i
  simp only [repeatSource, hN 0]
  rw [List.getElem?_eq_getElem (by rw [hN]; exact Nat.mod_lt i hpos)]
  rfl

/-! ### Batches -/

theorem stretch_ofList (xs : List E) (a n : Nat) : ((List.range n).filterMap fun i => Source.ofList xs (a + i)) = (xs.drop a).take n := by
  induction n with
  | zero => simp
  | succ n ih =>
    rw [List.range_succ, List.filterMap_append, ih]
    simp only [Source.ofList, List.filterMap_cons, List.filterMap_nil]
    rw [List.take_add_one, List.getElem?_drop]
    rcases h : xs[a + n]? with _ | x <;> simp

theorem batch_ofList {size : Nat} (hs : 1 ≤ size) (drop : Bool) (xs : List E) :
    batchSource size drop (Source.ofList xs) = Source.ofList ((chunks size xs).filter fun c => !drop || c.length == size) := by
  funext j
  have hb : ∀ (xs : List E) j, batchSource size drop (Source.ofList xs) j =
      if (xs.drop (j * size)).take size = [] ∨ (drop = true ∧ ((xs.drop (j * size)).take size).length < size) then none
      else some ((xs.drop (j * size)).take size) := fun xs j => by unfold batchSource; rw [stretch_ofList]
  rw [hb]
  unfold Source.ofList
  induction hn : xs.length using Nat.strong_induction_on generalizing xs j with
  | _ n ih =>
  subst hn
  rw [chunks]
  by_cases hx : xs = []
  · simp [hx]
  rw [dif_neg (by rintro (h | h); exacts [hx h, by omega])]
  have hpos : 0 < xs.length := List.length_pos_iff.2 hx
  by_cases hshort : drop = true ∧ xs.length < size
  · obtain ⟨hd, hl⟩ := hshort
    have hdrop : xs.drop size = [] := List.drop_eq_nil_of_le hl.le
    have hch : chunks size ([] : List E) = [] := by rw [chunks]; simp
    rw [if_pos (Or.inr ⟨hd, by rw [List.length_take, List.length_drop]; omega⟩), hdrop, hch]
    have : ¬ (xs.take size).length = size := by rw [List.length_take]; omega
    rw [List.filter_cons_of_neg (by simpa [hd] using this)]
    simp
  · have hkeep : (!drop || (xs.take size).length == size) = true := by
      cases drop with
      | false => rfl
      | true =>
        have : size ≤ xs.length := by
          by_contra h
          exact hshort ⟨rfl, by omega⟩
        simp [List.length_take, this]
    rw [List.filter_cons_of_pos (p := fun c : List E => !drop || c.length == size) hkeep]
    cases j with
    | zero =>
      rw [if_neg, Nat.zero_mul]
      · simp
      · rw [Nat.zero_mul, List.drop_zero, List.length_take]
        rintro (h | ⟨h1, h2⟩)
        · rw [List.take_eq_nil_iff] at h
          rcases h with h | h
          exacts [by omega, hx h]
        · exact hshort ⟨h1, by omega⟩
    | succ j =>
      have hdd : xs.drop ((j + 1) * size) = (xs.drop size).drop (j * size) := by rw [List.drop_drop]; congr 1; ring
      rw [hdd, List.getElem?_cons_succ]
      exact ih (xs.drop size).length (by rw [List.length_drop]; omega) (xs.drop size) j rfl

theorem batch_one {s : Source E} (drop : Bool) : batchSource 1 drop s = s.map fun x => [x] := by
  funext j
  unfold batchSource Source.map
  simp only [Nat.mul_one, List.range_one, List.filterMap_cons, List.filterMap_nil, Nat.add_zero]
  cases s j <;> simp

theorem batch_endless {size : Nat} (hs : 1 ≤ size) (drop : Bool) {s : Source E} (he : s.Endless) (j : Nat) :
    batchSource size drop s j = some ((List.range size).filterMap fun i => s (j * size + i)) := by
  have hl : ((List.range size).filterMap fun i => s (j * size + i)).length = size := filterMap_isSome_length fun i _ => he _
  unfold batchSource
  dsimp only
  rw [if_neg]
  rintro (h | ⟨-, h⟩)
  · rw [h] at hl; simp at hl; omega
  · omega

/-- What is read again and again is in a batch again and again. -/
theorem batch_again {size : Nat} (hs : 1 ≤ size) (drop : Bool) {s : Source E} (he : s.Endless) {P : E → Prop} (hP : s.Again P) :
    (batchSource size drop s).Again fun b => ∃ x ∈ b, P x := by
  intro n
  obtain ⟨k, hk, x, hx, hPx⟩ := hP (n * size)
  refine ⟨k / size, (Nat.le_div_iff_mul_le hs).2 hk, _, batch_endless hs drop he _, x, ?_, hPx⟩
  rw [List.mem_filterMap]
  exact ⟨k % size, List.mem_range.2 (Nat.mod_lt _ hs), by rw [Nat.div_add_mod' k size, hx]⟩

/-! ### One shard -/

section
variable (c : ReadConfig) (m : Machine) (read : F → List R) (files : List F) (sh : Nat)

theorem shardRecords_endless (hm : 1 ≤ m.fileCycle) (hrep : c.rep = none) (hB : c.shuffleSeed ≠ none → 1 ≤ c.shuffleBufferSize)
    (hne : files.flatMap read ≠ []) : (shardRecords c m read files sh).Endless := by
  have hl := epochRecords_length c m read files sh hm
  have he := repeat_endless hl (List.length_pos_iff.2 hne)
  have hcl := repeat_closed hl (none : Option Nat)
  unfold shardRecords
  dsimp only
  rw [hrep]
  cases hs : c.shuffleSeed with
  | none => exact he
  | some z => exact fun i => (buffer_pos hcl (hB (by rw [hs]; simp)) (m.random sh) i).2 (he i)

/-- Finitely many epochs: all their records. -/
theorem shardRecords_finite (hm : 1 ≤ m.fileCycle) {k : Nat} (hrep : c.rep = some k)
    (hB : c.shuffleSeed ≠ none → 1 ≤ c.shuffleBufferSize) :
    ∃ recs, shardRecords c m read files sh = Source.ofList recs ∧ recs.Perm (List.replicate k (files.flatMap read)).flatten := by
  have hp : ((List.range k).flatMap (epochRecords c m read files sh)).Perm (List.replicate k (files.flatMap read)).flatten := by
    rw [List.flatMap_def]
    have : ∀ n, ((List.range n).map (epochRecords c m read files sh)).flatten.Perm (List.replicate n (files.flatMap read)).flatten := by
      intro n
      induction n with
      | zero => simp
      | succ n ih =>
        rw [List.range_succ, List.map_append, List.flatten_append, List.replicate_succ', List.flatten_append]
        refine ih.append ?_
        simpa using (epochRecords_spec c m read files sh hm n).1
    exact this k
  unfold shardRecords
  dsimp only
  rw [hrep]
  simp only [repeatSource]
  cases hs : c.shuffleSeed with
  | none => exact ⟨_, rfl, hp⟩
  | some z =>
    obtain ⟨out, h1, h2⟩ := C124_finite ((List.range k).flatMap (epochRecords c m read files sh)) (hB (by rw [hs]; simp)) (m.random sh)
    exact ⟨out, h1, h2.trans hp⟩

end

/-! ### Refinement -/

theorem mkBatch_single (c : List E) (hc : c ≠ []) : mkBatch (c.map fun e => (⟨[], [e]⟩ : Elem E)) = .ok ⟨[c.length], c⟩ := by
  cases c with
  | nil => exact absurd rfl hc
  | cons a c =>
    have : ∀ l : List E, (l.map fun e => (⟨[], [e]⟩ : Elem E)).flatMap Elem.items = l := fun l => by
      induction l with
      | nil => rfl
      | cons x l ih => rw [List.map_cons, List.flatMap_cons, ih]; rfl
    unfold mkBatch
    simp only [List.map_cons]
    rw [if_pos (by simp), List.flatMap_cons, this]
    simp

theorem chunks_map (f : E → R) (b : Nat) (xs : List E) : chunks b (xs.map f) = (chunks b xs).map (List.map f) := by
  induction xs using chunks.induct b with
  | case1 xs h =>
    have e1 : chunks b xs = [] := by rw [chunks, dif_pos h]
    rw [e1, chunks, dif_pos (by simpa using h)]
    rfl
  | case2 xs h ih =>
    have e1 : chunks b xs = xs.take b :: chunks b (xs.drop b) := by rw [chunks, dif_neg h]
    rw [e1, chunks, dif_neg (by simpa using h), List.map_cons, ← ih, List.map_take, List.map_drop]

theorem chunks_ne_nil (b : Nat) (xs : List E) : ∀ c ∈ chunks b xs, c ≠ [] := by
  induction xs using chunks.induct b with
  | case1 xs h => rw [chunks, dif_pos h]; simp
  | case2 xs h ih =>
    rw [chunks, dif_neg h]
    intro c hc
    rcases List.mem_cons.1 hc with rfl | hc
    · rw [not_or] at h
      intro h0
      rcases List.take_eq_nil_iff.1 h0 with h0 | h0
      exacts [h.2 h0, h.1 h0]
    · exact ih c hc

/-- A batch of records as an element of a data set. -/
def asElem (b : List R) : Elem R := ⟨[b.length], b⟩

theorem batchAll_one {b : Nat} (hb : 1 ≤ b) (drop : Bool) (xs : List E) :
    batchAll [b] drop ((xs.flatMap fun r => [r]).map fun e => (⟨[], [e]⟩ : Elem E)) =
      .ok (((chunks b xs).filter fun c => !drop || c.length == b).map asElem) := by
  have hf : (xs.flatMap fun r => [r]) = xs := by simp
  rw [hf]
  simp only [batchAll, List.reverse_cons, List.reverse_nil, List.nil_append, List.foldlM_cons, List.foldlM_nil]
  rw [batch, if_neg (by omega), chunks_map]
  have hfil : ((chunks b xs).map (List.map fun e => (⟨[], [e]⟩ : Elem E))).filter (fun c => !drop || c.length == b) =
      ((chunks b xs).filter fun c => !drop || c.length == b).map (List.map fun e => (⟨[], [e]⟩ : Elem E)) := by
    rw [List.filter_map]
    congr 1
    apply List.filter_congr
    intro c _
    simp
  rw [hfil]
  have : ∀ cs : List (List E), (∀ c ∈ cs, c ≠ []) → (cs.map (List.map fun e => (⟨[], [e]⟩ : Elem E))).mapM mkBatch = .ok (cs.map asElem) := by
    intro cs
    induction cs with
    | nil => intro _; rfl
    | cons c cs ih =>
      intro h
      rw [List.map_cons, List.mapM_cons, mkBatch_single c (h c (by simp)), ih fun c hc => h c (List.mem_cons_of_mem _ hc)]
      rfl
  rw [this _ fun c hc => chunks_ne_nil b xs c (List.mem_of_mem_filter hc)]
  rfl

/-- **With a finite number of epochs the pipeline returns, in some order, what `Model/Dataset.lean` says a process may return.** -/
theorem processBatches_returns (c : ReadConfig) (m : Machine) (read : F → List R) (files : List F) (P p : Nat) {k : Nat}
    (hrep : c.rep = some k) (hb : 1 ≤ c.batchSize) (hB : c.shuffleSeed ≠ none → 1 ≤ c.shuffleBufferSize) (hf : 1 ≤ m.fileCycle)
    (hs : 1 ≤ m.shardCycle) : ∃ out, processBatches c m read files P p = Source.ofList out ∧
      ProcessReturns read (fun r => [r]) k [c.batchSize] c.dropRemainder files P p c.numShards (out.map asElem) := by
  have h := fun s => shardRecords_finite c m read (filesOf files P p c.numShards s) s hf hrep hB
  choose recs h1 h2 using h
  let bs : Nat → List (List R) := fun s => (chunks c.batchSize (recs s)).filter fun x => !c.dropRemainder || x.length == c.batchSize
  have hsrc : ((List.range c.numShards).map fun s =>
      batchSource c.batchSize c.dropRemainder (shardRecords c m read (filesOf files P p c.numShards s) s)) =
      ((List.range c.numShards).map bs).map Source.ofList := by
    rw [List.map_map]
    refine List.map_congr_left fun s _ => ?_
    rw [h1, batch_ofList hb]
    rfl
  obtain ⟨out, ho1, ho2, -⟩ := interleave_finite hs ((List.range c.numShards).map bs) (if c.deterministic then fun _ => 0 else m.shardTurn)
  refine ⟨out, by unfold processBatches; rw [hsrc]; exact ho1, fun s => (bs s).map asElem, fun s => ⟨recs s, h2 s, ?_⟩, ?_⟩
  · exact batchAll_one hb c.dropRemainder (recs s)
  · refine (ho2.map asElem).trans (List.Perm.of_eq ?_)
    rw [← List.flatMap_def, List.map_flatMap]
    have : List.range c.numShards = (List.finRange c.numShards).map Fin.val := by simp
    rw [this, List.flatMap_map]

end Waymax
