import Verif.Props.Pipeline
/-
Interleaving of several inputs: what is read, what is never read, and on what the order depends.
-/

namespace Waymax

variable {E R F : Type}

/-- The inputs that have not been used up: the open ones and the waiting ones. -/
def inputsLeft (slots : List (Option (Source E))) (waiting : List (Source E)) : List (Source E) := slots.filterMap id ++ waiting

/-- An element comes from one of the inputs, which moves on; inputs that have ended may disappear; all others stay. -/
theorem pull_some {slots : List (Option (Source E))} {waiting : List (Source E)} {x : E} {slots' : List (Option (Source E))}
    {waiting' : List (Source E)} (h : pull slots waiting = some (x, slots', waiting')) :
    slots' ≠ [] ∧ ∃ s rest ended, s 0 = some x ∧ (inputsLeft slots waiting).Perm (ended ++ s :: rest) ∧
      (inputsLeft slots' waiting').Perm (s.rest :: rest) ∧ ∀ e ∈ ended, e 0 = none := by
  induction slots, waiting using pull.induct with
  | case1 w => rw [pull] at h; cases h
  | case2 s tl w y hy =>
    rw [pull, hy] at h
    simp only [Option.some.injEq, Prod.mk.injEq] at h
    obtain ⟨rfl, rfl, rfl⟩ := h
    refine ⟨by simp, s, tl.filterMap id ++ w, [], hy, ?_, ?_, by simp⟩
    · simp [inputsLeft]
    · simp only [inputsLeft, List.filterMap_append, List.filterMap_cons, id, List.filterMap_nil]
      simp only [List.append_assoc, List.singleton_append]
      exact List.perm_middle
  | case3 s tl w hs ih =>
    rw [pull, hs] at h
    obtain ⟨h0, t, rest, ended, h1, h2, h3, h4⟩ := ih h
    refine ⟨h0, t, rest, s :: ended, h1, ?_, h3, ?_⟩
    · simp only [inputsLeft, List.filterMap_append, List.filterMap_cons, id, List.filterMap_nil, List.append_nil] at h2 ⊢
      exact h2.cons s
    · rintro e he
      rcases List.mem_cons.1 he with rfl | he
      exacts [hs, h4 e he]
  | case4 tl s w ih =>
    rw [pull] at h
    obtain ⟨h0, t, rest, ended, h1, h2, h3, h4⟩ := ih h
    refine ⟨h0, t, rest, ended, h1, ?_, h3, h4⟩
    refine List.Perm.trans ?_ h2
    simp only [inputsLeft, List.filterMap_cons, id]
    exact List.perm_middle
  | case5 tl ih =>
    rw [pull] at h
    obtain ⟨h0, t, rest, ended, h1, h2, h3, h4⟩ := ih h
    exact ⟨h0, t, rest, ended, h1, by simpa [inputsLeft] using h2, h3, h4⟩

/-- Only when all inputs have ended there is no element. -/
theorem pull_none {slots : List (Option (Source E))} {waiting : List (Source E)} (hc : slots = [] → waiting = [])
    (h : pull slots waiting = none) : ∀ s ∈ inputsLeft slots waiting, s 0 = none := by
  induction slots, waiting using pull.induct with
  | case1 w => rw [hc rfl]; simp [inputsLeft]
  | case2 s tl w y hy => rw [pull, hy] at h; cases h
  | case3 s tl w hs ih =>
    rw [pull, hs] at h
    have := ih (by simp) h
    intro t ht
    simp only [inputsLeft, List.filterMap_append, List.filterMap_cons, id, List.filterMap_nil, List.append_nil, List.cons_append,
      List.mem_cons] at this ht
    rcases ht with rfl | ht
    exacts [hs, this t ht]
  | case4 tl s w ih =>
    rw [pull] at h
    have := ih (by simp) h
    intro t ht
    refine this t ?_
    simp only [inputsLeft, List.filterMap_cons, id] at ht ⊢
    exact List.perm_middle.mem_iff.1 ht
  | case5 tl ih =>
    rw [pull] at h
    have := ih (fun _ => rfl) h
    intro t ht
    exact this t (by simpa [inputsLeft] using ht)

theorem pull_nil (w : List (Source E)) : pull [] w = none := by rw [pull]

/-! ### From any state -/

/-- The state after the next element. -/
def nextState (turn : Nat) (st : List (Option (Source E)) × List (Source E)) : List (Option (Source E)) × List (Source E) :=
  match pull (st.1.rotate turn) st.2 with
  | some (_, slots, waiting) => (slots, waiting)
  | none => ([], [])

/-- The state after `k` elements. -/
def stateFrom (st : List (Option (Source E)) × List (Source E)) (turn : Nat → Nat) : Nat → List (Option (Source E)) × List (Source E)
  | 0 => st
  | k + 1 => nextState (turn k) (stateFrom st turn k)

/-- Element `k`. -/
def outFrom (st : List (Option (Source E)) × List (Source E)) (turn : Nat → Nat) : Source E := fun k =>
  (pull ((stateFrom st turn k).1.rotate (turn k)) (stateFrom st turn k).2).map Prod.fst

theorem interleaveAt_eq (c : Nat) (inputs : List (Source E)) (turn : Nat → Nat) (k : Nat) :
    interleaveAt c inputs turn k = stateFrom (List.replicate c none, inputs) turn k := by
  induction k with
  | zero => rfl
  | succ k ih => unfold interleaveAt stateFrom nextState; rw [ih]; all_goals rfl

theorem interleave_eq (c : Nat) (inputs : List (Source E)) (turn : Nat → Nat) :
    interleave c inputs turn = outFrom (List.replicate c none, inputs) turn := by
  funext k
  unfold interleave outFrom
  rw [interleaveAt_eq]

theorem stateFrom_succ (st : List (Option (Source E)) × List (Source E)) (turn : Nat → Nat) (k : Nat) :
    stateFrom st turn (k + 1) = stateFrom (nextState (turn 0) st) (fun i => turn (i + 1)) k := by
  induction k with
  | zero => rfl
  | succ k ih => rw [stateFrom, ih, stateFrom]

theorem outFrom_succ (st : List (Option (Source E)) × List (Source E)) (turn : Nat → Nat) (k : Nat) :
    outFrom st turn (k + 1) = outFrom (nextState (turn 0) st) (fun i => turn (i + 1)) k := by
  unfold outFrom
  rw [stateFrom_succ]

theorem outFrom_nil (turn : Nat → Nat) (k : Nat) : outFrom (([], []) : List (Option (Source E)) × List (Source E)) turn k = none := by
  induction k generalizing turn with
  | zero => simp [outFrom, stateFrom, pull_nil]
  | succ k ih =>
    rw [outFrom_succ]
    have : nextState (turn 0) (([], []) : List (Option (Source E)) × List (Source E)) = ([], []) := by simp [nextState, pull_nil]
    rw [this, ih]

theorem inputsLeft_rotate (slots : List (Option (Source E))) (n : Nat) (w : List (Source E)) :
    (inputsLeft (slots.rotate n) w).Perm (inputsLeft slots w) :=
  ((List.rotate_perm slots n).filterMap id).append_right w

theorem ofList_rest {x : E} {xs : List E} : (Source.ofList (x :: xs)).rest = Source.ofList xs := by
  funext i
  simp [Source.rest, Source.ofList]

theorem ofList_inj {xs ys : List E} (h : Source.ofList xs = Source.ofList ys) : xs = ys :=
  List.ext_getElem? fun i => congrFun h i

/-- Reading finitely many finite inputs to the end gives all their elements, those of each input in their order. -/
theorem outFrom_finite (st : List (Option (Source E)) × List (Source E)) (hc : st.1 = [] → st.2 = []) (turn : Nat → Nat)
    (ls : List (List E)) (hls : (inputsLeft st.1 st.2).Perm (ls.map Source.ofList)) :
    ∃ out, outFrom st turn = Source.ofList out ∧ out.Perm ls.flatten ∧ ∀ l ∈ ls, l.Sublist out := by
  induction hn : ls.flatten.length generalizing st turn ls with
  | zero =>
    have hall : ∀ l ∈ ls, l = [] := fun l hl => by
      have : ls.flatten = [] := List.eq_nil_of_length_eq_zero hn
      exact List.flatten_eq_nil_iff.1 this l hl
    have hp : pull (st.1.rotate (turn 0)) st.2 = none := by
      rcases hp : pull (st.1.rotate (turn 0)) st.2 with _ | ⟨x, s', w'⟩
      · rfl
      · obtain ⟨-, s, rest, ended, h1, h2, -⟩ := pull_some hp
        have hm : s ∈ ls.map Source.ofList := hls.mem_iff.1 ((inputsLeft_rotate _ _ _).mem_iff.1 (h2.mem_iff.2 (by simp)))
        obtain ⟨l, hl, rfl⟩ := List.mem_map.1 hm
        rw [hall l hl] at h1
        cases h1
    refine ⟨[], ?_, ?_, fun l hl => by rw [hall l hl]⟩
    · funext k
      cases k with
      | zero => simp [outFrom, stateFrom, hp, Source.ofList]
      | succ k =>
        have hns : nextState (turn 0) st = ([], []) := by unfold nextState; rw [hp]
        rw [outFrom_succ, hns, outFrom_nil]
        simp [Source.ofList]
    · rw [List.eq_nil_of_length_eq_zero hn]
  | succ n ih =>
    rcases hp : pull (st.1.rotate (turn 0)) st.2 with _ | ⟨x, s', w'⟩
    · exfalso
      have hz := pull_none (fun h => hc ((List.rotate_eq_nil_iff).1 h)) hp
      have : ls.flatten = [] := List.flatten_eq_nil_iff.2 fun l hl => by
        have := hz (Source.ofList l) ((inputsLeft_rotate _ _ _).mem_iff.2 (hls.mem_iff.2 (List.mem_map_of_mem hl)))
        unfold Source.ofList at this
        rw [List.getElem?_eq_none_iff] at this
        exact List.eq_nil_of_length_eq_zero (by omega)
      rw [this] at hn
      cases hn
    · obtain ⟨hne, s, rest, ended, h1, h2, h3, h4⟩ := pull_some hp
      have hperm := ((inputsLeft_rotate st.1 (turn 0) st.2).symm.trans h2).symm.trans hls
      -- the lists behind the sources
      obtain ⟨ms, hmeq, hms⟩ : ∃ ms : List (List E), ended ++ s :: rest = ms.map Source.ofList ∧ ms.Perm ls := by
        have : Relation.Comp (· = List.map Source.ofList ·) List.Perm (ended ++ s :: rest) ls := by
          rw [List.eq_map_comp_perm]; exact hperm
        exact this
      obtain ⟨me, mr, rfl, hme, hmr⟩ := List.append_eq_map_iff.1 hmeq
      obtain ⟨m, mr, rfl, hm, hmr⟩ := List.map_eq_cons_iff.1 hmr
      have hmx : ∃ m', m = x :: m' := by
        rw [← hm] at h1
        cases m with
        | nil => cases h1
        | cons y m' =>
          simp only [Source.ofList, List.getElem?_cons_zero, Option.some.injEq] at h1
          exact ⟨m', by rw [h1]⟩
      obtain ⟨m', rfl⟩ := hmx
      have hmenil : ∀ l ∈ me, l = [] := fun l hl => by
        have := h4 (Source.ofList l) (hme ▸ List.mem_map_of_mem hl)
        unfold Source.ofList at this
        rw [List.getElem?_eq_none_iff] at this
        exact List.eq_nil_of_length_eq_zero (by omega)
      have hflat : me.flatten = [] := List.flatten_eq_nil_iff.2 hmenil
      have hfl : ls.flatten.Perm (x :: (m' :: mr).flatten) := by
        refine hms.symm.flatten.trans ?_
        rw [List.flatten_append, hflat]
        simp
      have hns : nextState (turn 0) st = (s', w') := by unfold nextState; rw [hp]
      obtain ⟨out, ho1, ho2, ho3⟩ := ih (s', w') (fun h => absurd h hne) (fun i => turn (i + 1)) (m' :: mr)
        (by rw [List.map_cons, ← ofList_rest, hm]; rw [List.map_cons, List.cons.injEq] at hmr; rw [hmr.2]; exact h3)
        (by have := hfl.length_eq; rw [List.length_cons] at this; omega)
      refine ⟨x :: out, ?_, (ho2.cons x).trans hfl.symm, fun l hl => ?_⟩
      · funext k
        cases k with
        | zero => simp [outFrom, stateFrom, hp, Source.ofList]
        | succ k => rw [outFrom_succ, hns, ho1]; simp [Source.ofList]
      · rcases List.mem_append.1 (hms.mem_iff.2 hl) with h | h
        · rw [hmenil l h]; exact List.nil_sublist _
        · rcases List.mem_cons.1 h with rfl | h
          · exact (ho3 m' (by simp)).cons_cons x
          · exact (ho3 l (List.mem_cons_of_mem _ h)).cons x

/-! ### Starvation -/

/-- The number of empty slots. -/
def vacant (slots : List (Option (Source E))) : Nat := slots.countP Option.isNone

/-- When every slot can be filled with an endless input the inputs behind them are never opened. -/
theorem pull_behind (slots : List (Option (Source E))) (a b : List (Source E)) (hv : vacant slots = a.length)
    (he : ∀ s ∈ inputsLeft slots a, s.Endless) :
    pull slots (a ++ b) = (pull slots a).map (fun r => (r.1, r.2.1, r.2.2 ++ b)) ∧
      ∀ x slots' a', pull slots a = some (x, slots', a') → vacant slots' = a'.length ∧ ∀ s ∈ inputsLeft slots' a', s.Endless := by
  induction slots, a using pull.induct with
  | case1 w => simp [pull_nil]
  | case2 s tl w y hy =>
    rw [pull, hy, pull, hy]
    refine ⟨rfl, fun x slots' a' h => ?_⟩
    simp only [Option.some.injEq, Prod.mk.injEq] at h
    obtain ⟨rfl, rfl, rfl⟩ := h
    refine ⟨by simpa [vacant] using hv, fun t ht => ?_⟩
    simp only [inputsLeft, List.filterMap_append, List.filterMap_cons, id, List.filterMap_nil, List.mem_append, List.mem_cons,
      List.not_mem_nil, or_false] at ht he
    rcases ht with (ht | rfl) | ht
    · exact he t (by simp [ht])
    · exact fun i => he s (by simp) (i + 1)
    · exact he t (by simp [ht])
  | case3 s tl w hs ih =>
    have := he s (by simp [inputsLeft]) 0
    rw [hs] at this
    cases this
  | case4 tl s w ih =>
    have e1 : ∀ v, pull (none :: tl) (s :: v) = pull (some s :: tl) v := fun v => by conv_lhs => rw [pull]
    rw [List.cons_append, e1, e1]
    refine ih (by simpa [vacant] using hv) fun t ht => he t ?_
    simp only [inputsLeft, List.filterMap_cons, id] at ht ⊢
    exact List.perm_middle.mem_iff.2 ht
  | case5 tl ih => simp [vacant] at hv

theorem vacant_rotate (slots : List (Option (Source E))) (n : Nat) : vacant (slots.rotate n) = vacant slots :=
  (List.rotate_perm slots n).countP_eq _

/-- **Inputs behind the first `c` endless ones are never read.** -/
theorem interleave_behind (a b : List (Source E)) (he : ∀ s ∈ a, s.Endless) (turn : Nat → Nat) :
    interleave a.length (a ++ b) turn = interleave a.length a turn := by
  rw [interleave_eq, interleave_eq]
  suffices key : ∀ k (st : List (Option (Source E)) × List (Source E)) (turn : Nat → Nat), vacant st.1 = st.2.length →
      (∀ s ∈ inputsLeft st.1 st.2, s.Endless) → outFrom (st.1, st.2 ++ b) turn k = outFrom st turn k from
    funext fun k => key k (_, a) turn (by simp [vacant, List.countP_replicate]) (by simpa [inputsLeft] using he)
  intro k
  induction k with
  | zero =>
    intro st turn hv hs
    have h1 := (pull_behind (st.1.rotate (turn 0)) st.2 b (by rw [vacant_rotate, hv])
      (fun s h => hs s ((inputsLeft_rotate _ _ _).mem_iff.1 h))).1
    simp only [outFrom, stateFrom]
    rw [h1]
    cases pull (st.1.rotate (turn 0)) st.2 <;> rfl
  | succ k ih =>
    intro st turn hv hs
    obtain ⟨h1, h2⟩ := pull_behind (st.1.rotate (turn 0)) st.2 b (by rw [vacant_rotate, hv])
      (fun s h => hs s ((inputsLeft_rotate _ _ _).mem_iff.1 h))
    rw [outFrom_succ, outFrom_succ]
    rcases hp : pull (st.1.rotate (turn 0)) st.2 with _ | ⟨x, s', w'⟩
    · rw [hp] at h1
      have e1 : nextState (turn 0) (st.1, st.2 ++ b) = ([], []) := by unfold nextState; dsimp only; rw [h1]; rfl
      have e2 : nextState (turn 0) st = ([], []) := by unfold nextState; rw [hp]
      rw [e1, e2]
    · rw [hp] at h1
      have e1 : nextState (turn 0) (st.1, st.2 ++ b) = (s', w' ++ b) := by unfold nextState; dsimp only; rw [h1]; rfl
      have e2 : nextState (turn 0) st = (s', w') := by unfold nextState; rw [hp]
      rw [e1, e2]
      obtain ⟨h3, h4⟩ := h2 x s' w' hp
      exact ih (s', w') _ h3 h4

/-! ### Enough slots -/

theorem pull_waiting {slots : List (Option (Source E))} {w : List (Source E)} {x : E} {slots' : List (Option (Source E))}
    {w' : List (Source E)} (h : pull slots w = some (x, slots', w')) : w' <:+ w := by
  induction slots, w using pull.induct with
  | case1 w => rw [pull] at h; cases h
  | case2 s tl w y hy =>
    rw [pull, hy] at h
    simp only [Option.some.injEq, Prod.mk.injEq] at h
    rw [h.2.2]
  | case3 s tl w hs ih => rw [pull, hs] at h; exact ih h
  | case4 tl s w ih => rw [pull] at h; exact (ih h).trans (List.suffix_cons s w)
  | case5 tl ih => rw [pull] at h; exact ih h

theorem pull_waiting_nil {slots : List (Option (Source E))} {x : E} {slots' : List (Option (Source E))}
    {w' : List (Source E)} (h : pull slots [] = some (x, slots', w')) : w' = [] :=
  List.suffix_nil.1 (pull_waiting h)

/-- With at least as many empty slots in front as there are inputs waiting, the number of empty slots does not matter. -/
theorem pull_slots (w : List (Source E)) : ∀ (tl : List (Option (Source E))) (a₁ a₂ : Nat), w.length ≤ a₁ → w.length ≤ a₂ →
    (pull (List.replicate a₁ none ++ tl) w = none ∧ pull (List.replicate a₂ none ++ tl) w = none) ∨
    ∃ x tl' b₁ b₂ w', w'.length ≤ b₁ ∧ w'.length ≤ b₂ ∧
      pull (List.replicate a₁ none ++ tl) w = some (x, List.replicate b₁ none ++ tl', w') ∧
      pull (List.replicate a₂ none ++ tl) w = some (x, List.replicate b₂ none ++ tl', w') := by
  induction w with
  | nil =>
    intro tl a₁ a₂ _ _
    have e : ∀ a, pull (List.replicate a none ++ tl) [] = pull tl [] := by
      intro a
      induction a with
      | zero => rfl
      | succ a ih => rw [List.replicate_succ, List.cons_append, pull, ih]
    rw [e, e]
    rcases hp : pull tl [] with _ | ⟨x, s', w'⟩
    · exact Or.inl ⟨rfl, rfl⟩
    · have hw := pull_waiting_nil hp
      subst hw
      exact Or.inr ⟨x, s', 0, 0, [], le_refl _, le_refl _, rfl, rfl⟩
  | cons s w ih =>
    intro tl a₁ a₂ h1 h2
    obtain ⟨a₁, rfl⟩ : ∃ a, a₁ = a + 1 := ⟨a₁ - 1, by simp at h1; omega⟩
    obtain ⟨a₂, rfl⟩ : ∃ a, a₂ = a + 1 := ⟨a₂ - 1, by simp at h2; omega⟩
    simp only [List.length_cons, Nat.add_le_add_iff_right] at h1 h2
    have e1 : ∀ a, pull (List.replicate (a + 1) none ++ tl) (s :: w) = pull (some s :: (List.replicate a none ++ tl)) w := fun a => by
      rw [List.replicate_succ, List.cons_append]
      conv_lhs => rw [pull]
    rw [e1, e1]
    rcases hs : s 0 with _ | x
    · rw [pull, hs, pull, hs]
      simp only [List.append_assoc]
      exact ih _ _ _ h1 h2
    · refine Or.inr ⟨x, tl ++ [some s.rest], a₁, a₂, w, h1, h2, ?_, ?_⟩
      · rw [pull, hs]; simp
      · rw [pull, hs]; simp

/-- **From `inputs.length` on, the number of inputs that can be open does not change what is read.** -/
theorem interleave_cycle (inputs : List (Source E)) (c₁ c₂ : Nat) (h1 : inputs.length ≤ c₁) (h2 : inputs.length ≤ c₂) :
    interleave c₁ inputs (fun _ => 0) = interleave c₂ inputs (fun _ => 0) := by
  rw [interleave_eq, interleave_eq]
  suffices key : ∀ k (w : List (Source E)) (tl : List (Option (Source E))) (a₁ a₂ : Nat), w.length ≤ a₁ → w.length ≤ a₂ →
      outFrom (List.replicate a₁ none ++ tl, w) (fun _ => 0) k = outFrom (List.replicate a₂ none ++ tl, w) (fun _ => 0) k from
    funext fun k => by simpa using key k inputs [] c₁ c₂ h1 h2
  intro k
  induction k with
  | zero =>
    intro w tl a₁ a₂ h1 h2
    rcases pull_slots w tl a₁ a₂ h1 h2 with ⟨e1, e2⟩ | ⟨x, tl', b₁, b₂, w', -, -, e1, e2⟩
    · simp only [outFrom, stateFrom, List.rotate_zero, e1, e2]
    · simp only [outFrom, stateFrom, List.rotate_zero, e1, e2, Option.map_some]
  | succ k ih =>
    intro w tl a₁ a₂ h1 h2
    rw [outFrom_succ, outFrom_succ]
    rcases pull_slots w tl a₁ a₂ h1 h2 with ⟨e1, e2⟩ | ⟨x, tl', b₁, b₂, w', h3, h4, e1, e2⟩
    · simp only [nextState, List.rotate_zero, e1, e2]
    · simp only [nextState, List.rotate_zero, e1, e2]
      exact ih w' tl' b₁ b₂ h3 h4

/-! ### Fairness -/

/-- Reading in order with enough slots: while inputs are waiting, the next one is opened. -/
theorem pull_opens (s : Source E) (w : List (Source E)) (tl : List (Option (Source E))) (a : Nat) (x : E) (hx : s 0 = some x) :
    pull (List.replicate (a + 1) none ++ tl) (s :: w) = some (x, List.replicate a none ++ (tl ++ [some s.rest]), w) := by
  rw [List.replicate_succ, List.cons_append]
  conv_lhs => rw [pull]
  conv_lhs => rw [pull]
  rw [hx]
  simp

/-- A slot with an element is `p` places away from the cursor: after one more element of the output it is less far away, or has been read. -/
theorem pull_nearer {slots : List (Option (Source E))} {w : List (Source E)} {s : Source E} {x : E} (hx : s 0 = some x)
    {pre post : List (Option (Source E))} (hs : slots = pre ++ some s :: post) :
    (∃ slots' w', pull slots w = some (x, slots' ++ [some s.rest], w')) ∨
    ∃ y pre' post' w', pull slots w = some (y, pre' ++ some s :: post', w') ∧ pre'.length < pre.length := by
  induction slots, w using pull.induct generalizing pre post with
  | case1 w => simp at hs
  | case2 t tl w y hy =>
    cases pre with
    | nil =>
      simp only [List.nil_append, List.cons.injEq, Option.some.injEq] at hs
      obtain ⟨rfl, rfl⟩ := hs
      rw [hx] at hy
      cases hy
      exact Or.inl ⟨tl, w, by rw [pull, hx]⟩
    | cons o pre =>
      simp only [List.cons_append, List.cons.injEq] at hs
      obtain ⟨-, rfl⟩ := hs
      exact Or.inr ⟨y, pre, post ++ [some t.rest], w, by rw [pull, hy]; simp, by simp⟩
  | case3 t tl w ht ih =>
    cases pre with
    | nil =>
      simp only [List.nil_append, List.cons.injEq, Option.some.injEq] at hs
      obtain ⟨rfl, rfl⟩ := hs
      rw [hx] at ht
      cases ht
    | cons o pre =>
      simp only [List.cons_append, List.cons.injEq] at hs
      obtain ⟨-, rfl⟩ := hs
      rw [pull, ht]
      rcases ih (pre := pre) (post := post ++ [none]) (by simp) with h | ⟨y, pre', post', w', h, hl⟩
      · exact Or.inl h
      · exact Or.inr ⟨y, pre', post', w', h, by simp; omega⟩
  | case4 tl t w ih =>
    cases pre with
    | nil => simp at hs
    | cons o pre =>
      simp only [List.cons_append, List.cons.injEq] at hs
      obtain ⟨-, rfl⟩ := hs
      have e1 : pull (none :: (pre ++ some s :: post)) (t :: w) = pull (some t :: (pre ++ some s :: post)) w := by
        conv_lhs => rw [pull]
      rw [e1]
      exact ih (pre := some t :: pre) (post := post) (by simp)
  | case5 tl ih =>
    cases pre with
    | nil => simp at hs
    | cons o pre =>
      simp only [List.cons_append, List.cons.injEq] at hs
      obtain ⟨-, rfl⟩ := hs
      rw [pull]
      rcases ih (pre := pre) (post := post) rfl with h | ⟨y, pre', post', w', h, hl⟩
      · exact Or.inl h
      · exact Or.inr ⟨y, pre', post', w', h, by simp; omega⟩

/-- An open input gives its next element within as many steps as it is places away. -/
theorem outFrom_open (p : Nat) : ∀ (st : List (Option (Source E)) × List (Source E)) (s : Source E) (x : E)
    (pre post : List (Option (Source E))), s 0 = some x → st.1 = pre ++ some s :: post → pre.length ≤ p →
    ∃ k ≤ p, outFrom st (fun _ => 0) k = some x ∧ some s.rest ∈ (stateFrom st (fun _ => 0) (k + 1)).1 := by
  induction p with
  | zero =>
    intro st s x pre post hx hs hp
    refine ⟨0, le_refl _, ?_⟩
    rcases pull_nearer (w := st.2) hx hs with ⟨s', w', h⟩ | ⟨y, pre', post', w', h, hl⟩
    · simp [outFrom, stateFrom, nextState, h]
    · omega
  | succ p ih =>
    intro st s x pre post hx hs hp
    rcases pull_nearer (w := st.2) hx hs with ⟨s', w', h⟩ | ⟨y, pre', post', w', h, hl⟩
    · exact ⟨0, Nat.zero_le _, by simp [outFrom, stateFrom, nextState, h]⟩
    · have hn : nextState 0 st = (pre' ++ some s :: post', w') := by simp [nextState, h]
      obtain ⟨k, hk, h1, h2⟩ := ih (pre' ++ some s :: post', w') s x pre' post' hx rfl (by omega)
      refine ⟨k + 1, by omega, ?_, ?_⟩
      · rw [outFrom_succ, hn]; exact h1
      · rw [stateFrom_succ, hn]; exact h2

theorem stateFrom_add (st : List (Option (Source E)) × List (Source E)) (k j : Nat) :
    stateFrom st (fun _ => 0) (k + j) = stateFrom (stateFrom st (fun _ => 0) k) (fun _ => 0) j := by
  induction k generalizing st with
  | zero => rw [Nat.zero_add]; rfl
  | succ k ih => rw [Nat.succ_add, stateFrom_succ, ih, stateFrom_succ]

theorem outFrom_add (st : List (Option (Source E)) × List (Source E)) (k j : Nat) :
    outFrom st (fun _ => 0) (k + j) = outFrom (stateFrom st (fun _ => 0) k) (fun _ => 0) j := by
  unfold outFrom
  rw [stateFrom_add]

/-- Every element of an open input is given sometime. -/
theorem outFrom_reaches (j : Nat) : ∀ (st : List (Option (Source E)) × List (Source E)) (s : Source E) (x : E), some s ∈ st.1 →
    s j = some x → (∀ i < j, (s i).isSome) → ∃ k, outFrom st (fun _ => 0) k = some x := by
  induction j with
  | zero =>
    intro st s x hs hx _
    obtain ⟨pre, post, h⟩ := List.append_of_mem hs
    obtain ⟨k, -, hk, -⟩ := outFrom_open pre.length st s x pre post hx h (le_refl _)
    exact ⟨k, hk⟩
  | succ j ih =>
    intro st s x hs hx hbefore
    obtain ⟨pre, post, h⟩ := List.append_of_mem hs
    obtain ⟨y, hy⟩ := Option.isSome_iff_exists.1 (hbefore 0 (by omega))
    obtain ⟨k, -, -, hk⟩ := outFrom_open pre.length st s y pre post hy h (le_refl _)
    obtain ⟨k', hk'⟩ := ih _ s.rest x hk hx (fun i hi => hbefore (i + 1) (by omega))
    exact ⟨k + 1 + k', by rw [outFrom_add]; exact hk'⟩

/-- With enough slots every input that has an element is opened. -/
theorem outFrom_opened (w : List (Source E)) : ∀ (tl : List (Option (Source E))) (a : Nat) (s : Source E), s ∈ w → w.length ≤ a →
    (s 0).isSome → ∃ st : List (Option (Source E)) × List (Source E), some s ∈ st.1 ∧
      ∃ k, ∀ j, outFrom (List.replicate a none ++ tl, w) (fun _ => 0) (k + j) = outFrom st (fun _ => 0) j := by
  induction w with
  | nil => intro tl a s hs; simp at hs
  | cons t w ih =>
    intro tl a s hs ha hsome
    obtain ⟨a, rfl⟩ : ∃ a', a = a' + 1 := ⟨a - 1, by simp at ha; omega⟩
    simp only [List.length_cons, Nat.add_le_add_iff_right] at ha
    have e1 : pull (List.replicate (a + 1) none ++ tl) (t :: w) = pull (some t :: (List.replicate a none ++ tl)) w := by
      rw [List.replicate_succ, List.cons_append]
      conv_lhs => rw [pull]
    have e2 : ∀ j, outFrom (List.replicate (a + 1) none ++ tl, t :: w) (fun _ => 0) j =
        outFrom (some t :: (List.replicate a none ++ tl), w) (fun _ => 0) j := by
      intro j
      cases j with
      | zero => simp only [outFrom, stateFrom, List.rotate_zero, e1]
      | succ j => rw [outFrom_succ, outFrom_succ]; simp only [nextState, List.rotate_zero, e1]
    rcases List.mem_cons.1 hs with rfl | hs
    · exact ⟨(some s :: (List.replicate a none ++ tl), w), by simp, 0, fun j => by rw [Nat.zero_add, e2]⟩
    · rcases ht : t 0 with _ | y
      · obtain ⟨st, h1, k, h2⟩ := ih (tl ++ [none]) a s hs ha hsome
        refine ⟨st, h1, k, fun j => ?_⟩
        have e3 : pull (some t :: (List.replicate a none ++ tl)) w = pull (List.replicate a none ++ (tl ++ [none])) w := by
          rw [pull, ht]; simp
        rw [← h2 j, e2]
        cases k + j with
        | zero => simp only [outFrom, stateFrom, List.rotate_zero, e3]
        | succ j => rw [outFrom_succ, outFrom_succ]; simp only [nextState, List.rotate_zero, e3]
      · obtain ⟨st, h1, k, h2⟩ := ih (tl ++ [some t.rest]) a s hs ha hsome
        refine ⟨st, h1, k + 1, fun j => ?_⟩
        have e3 : pull (some t :: (List.replicate a none ++ tl)) w = some (y, List.replicate a none ++ (tl ++ [some t.rest]), w) := by
          rw [pull, ht]; simp
        rw [← h2 j, e2, show k + 1 + j = (k + j) + 1 by omega, outFrom_succ]
        simp only [nextState, List.rotate_zero, e3]

/-- **Every element of every input is read when there is a slot for each input.** -/
theorem interleave_reaches (inputs : List (Source E)) (c : Nat) (hc : inputs.length ≤ c) (s : Source E) (hs : s ∈ inputs) (j : Nat) (x : E)
    (hx : s j = some x) (hb : ∀ i < j, (s i).isSome) : ∃ k, interleave c inputs (fun _ => 0) k = some x := by
  rw [interleave_eq]
  have h0 : (s 0).isSome := by
    cases j with
    | zero => rw [hx]; rfl
    | succ j => exact hb 0 (by omega)
  obtain ⟨st, h1, k, h2⟩ := outFrom_opened inputs [] c s hs hc h0
  obtain ⟨k', hk'⟩ := outFrom_reaches j st s x h1 hx hb
  exact ⟨k + k', by rw [← hk', ← h2]; simp⟩

/-! ### Interleaving and mapping -/

theorem pull_map (f : E → R) (slots : List (Option (Source E))) (w : List (Source E)) :
    pull (slots.map (Option.map (Source.map f))) (w.map (Source.map f)) =
      (pull slots w).map fun r => (f r.1, r.2.1.map (Option.map (Source.map f)), r.2.2.map (Source.map f)) := by
  induction slots, w using pull.induct with
  | case1 w => simp [pull_nil]
  | case2 s tl w y hy =>
    rw [pull, hy, List.map_cons, Option.map_some, pull]
    have : (Source.map f s) 0 = some (f y) := by simp [Source.map, hy]
    rw [this]
    simp only [Option.map_some, List.map_append, List.map_cons, List.map_nil]
    rfl
  | case3 s tl w hs ih =>
    rw [pull, hs, List.map_cons, Option.map_some, pull]
    have : (Source.map f s) 0 = none := by simp [Source.map, hs]
    rw [this, ← ih]
    simp
  | case4 tl s w ih =>
    rw [List.map_cons, List.map_cons, Option.map_none]
    conv_lhs => rw [pull]
    conv_rhs => rw [pull]
    exact ih
  | case5 tl ih =>
    rw [List.map_cons, List.map_nil, Option.map_none]
    conv_lhs => rw [pull]
    conv_rhs => rw [pull]
    exact ih

/-- Interleaving does not look at the elements. -/
theorem interleave_map (f : E → R) (c : Nat) (inputs : List (Source E)) (turn : Nat → Nat) :
    interleave c (inputs.map (Source.map f)) turn = Source.map f (interleave c inputs turn) := by
  have hst : ∀ k, interleaveAt c (inputs.map (Source.map f)) turn k =
      ((interleaveAt c inputs turn k).1.map (Option.map (Source.map f)), (interleaveAt c inputs turn k).2.map (Source.map f)) := by
    intro k
    induction k with
    | zero => simp [interleaveAt]
    | succ k ih =>
      unfold interleaveAt
      dsimp only
      rw [ih]
      dsimp only
      rw [← List.map_rotate, pull_map]
      rcases pull ((interleaveAt c inputs turn k).1.rotate (turn k)) (interleaveAt c inputs turn k).2 with _ | ⟨x, s', w'⟩ <;> rfl
  funext k
  unfold interleave
  dsimp only
  rw [hst]
  dsimp only
  rw [← List.map_rotate, pull_map]
  simp only [Source.map]
  rcases pull ((interleaveAt c inputs turn k).1.rotate (turn k)) (interleaveAt c inputs turn k).2 with _ | ⟨x, s', w'⟩ <;> rfl

/-- What is read again and again from one input is read again and again from the whole. -/
theorem interleave_again (inputs : List (Source E)) (c : Nat) (hc : inputs.length ≤ c) (s : Source E) (hs : s ∈ inputs)
    (he : s.Endless) (P : E → Prop) (hP : s.Again P) : (interleave c inputs (fun _ => 0)).Again P := by
  intro n
  have htag : interleave c inputs (fun _ => 0) = (interleave c (inputs.map Source.tag) (fun _ => 0)).map Prod.snd := by
    rw [← interleave_map, List.map_map]
    congr 1
    conv_lhs => rw [← List.map_id inputs]
    exact List.map_congr_left fun t _ => (tag_map t).symm
  have hbound : ∃ B, ∀ k < n, ∀ t, interleave c (inputs.map Source.tag) (fun _ => 0) k = some t → t.1 < B := by
    induction n with
    | zero => exact ⟨0, by simp⟩
    | succ n ih =>
      obtain ⟨B, hB⟩ := ih
      rcases h : interleave c (inputs.map Source.tag) (fun _ => 0) n with _ | t
      · refine ⟨B, fun k hk u hu => ?_⟩
        rcases Nat.lt_succ_iff_lt_or_eq.1 hk with hk | rfl
        · exact hB k hk u hu
        · rw [h] at hu; cases hu
      · refine ⟨max B (t.1 + 1), fun k hk u hu => ?_⟩
        rcases Nat.lt_succ_iff_lt_or_eq.1 hk with hk | rfl
        · exact lt_of_lt_of_le (hB k hk u hu) (le_max_left _ _)
        · rw [h] at hu; cases hu; omega
  obtain ⟨B, hB⟩ := hbound
  obtain ⟨j, hj, x, hx, hPx⟩ := hP B
  obtain ⟨k, hk⟩ := interleave_reaches (inputs.map Source.tag) c (by simpa using hc) s.tag (List.mem_map_of_mem hs) j (j, x)
    (by simp [Source.tag, hx]) (fun i _ => by simp only [Source.tag, Option.isSome_map]; exact he i)
  refine ⟨k, ?_, x, ?_, hPx⟩
  · by_contra hlt
    have := hB k (by omega) (j, x) hk
    simp only at this
    omega
  · rw [htag]
    simp [Source.map, hk]

end Waymax
