import Verif.Props.Padding
/-
A rollout of two related environments with related actors gives related outputs.
-/

namespace Waymax

section
variable {S S' A A' O O' M M' R R' X X' K P C C' : Type}

theorem rolloutStep_related {env : Env S A O M R} {env' : Env S' A' O' M' R'} {actor : Actor S A X K P C} {actor' : Actor S' A' X' K P C'}
    {relS : S → S' → Prop} {relA : A → A' → Prop} {relO : O → O' → Prop} {relM : M → M' → Prop} {relR : R → R' → Prop}
    {relX : X → X' → Prop} {params : P}
    (hsel : ∀ s s' x x' k, relS s s' → relX x x' →
      relA (actor.selectAction params s x k).action (actor'.selectAction params s' x' k).action ∧
      relX (actor.selectAction params s x k).actorState (actor'.selectAction params s' x' k).actorState)
    (hstep : ∀ s s' a a', relS s s' → relA a a' → Both relS (env.step s a) (env'.step s' a'))
    (hobs : ∀ s s', relS s s' → relO (env.observe s) (env'.observe s'))
    (hmet : ∀ s s', relS s s' → Both relM (env.metrics s) (env'.metrics s'))
    (hrew : ∀ s s' a a', relS s s' → relA a a' → Both relR (env.reward s a) (env'.reward s' a'))
    (split : K → K × K) {c : RolloutCarry S O X K} {c' : RolloutCarry S' O' X' K}
    (h : relS c.state c'.state ∧ relO c.observation c'.observation ∧ c'.rng = c.rng ∧ relX c.actorState c'.actorState) :
    Both (fun y y' => (relS y.1.state y'.1.state ∧ relO y.1.observation y'.1.observation ∧ y'.1.rng = y.1.rng ∧
        relX y.1.actorState y'.1.actorState) ∧
      relA y.2.action y'.2.action ∧ relS y.2.state y'.2.state ∧ relO y.2.observation y'.2.observation ∧
        relM y.2.metrics y'.2.metrics ∧ relR y.2.reward y'.2.reward)
      (rolloutStep env actor split params c) (rolloutStep env' actor' split params c') := by
  obtain ⟨st, ob, k, x⟩ := c
  obtain ⟨st', ob', k', x'⟩ := c'
  obtain ⟨h1, h2, h3, h4⟩ := h
  simp only at h1 h2 h3 h4
  subst h3
  unfold rolloutStep
  obtain ⟨ha, hx⟩ := hsel st st' x x' (split k').1 h1 h4
  refine (hstep _ _ _ _ h1 ha).bind fun t t' ht => ?_
  refine (hmet _ _ h1).bind fun m m' hm => ?_
  refine (hrew _ _ _ _ h1 ha).bind fun r r' hr => ?_
  exact .ok ⟨⟨ht, hobs _ _ ht, rfl, hx⟩, ha, h1, h2, hm, hr⟩

theorem scan_related {Γ Γ' Y Y' : Type} {f : Γ → Except Err (Γ × Y)} {f' : Γ' → Except Err (Γ' × Y')} {rel : Γ → Γ' → Prop}
    {relY : Y → Y' → Prop} (hf : ∀ c c', rel c c' → Both (fun y y' => rel y.1 y'.1 ∧ relY y.2 y'.2) (f c) (f' c')) (k : Nat) :
    ∀ c c', rel c c' → Both (fun y y' => rel y.1 y'.1 ∧ List.Forall₂ relY y.2 y'.2) (scan f k c) (scan f' k c') := by
  induction k with
  | zero => exact fun c c' hcc => .ok ⟨hcc, .nil⟩
  | succ k ih =>
    intro c c' hcc
    unfold scan
    refine (hf c c' hcc).bind fun x x' hx => ?_
    exact (ih _ _ hx.1).bind fun y y' hy => .ok ⟨hy.1, .cons hx.2 hy.2⟩

/-- The outputs of a rollout are related, entry by entry. -/
theorem rollout_related {env : Env S A O M R} {env' : Env S' A' O' M' R'} {actor : Actor S A X K P C} {actor' : Actor S' A' X' K P C'}
    {relS : S → S' → Prop} {relA : A → A' → Prop} {relO : O → O' → Prop} {relM : M → M' → Prop} {relR : R → R' → Prop}
    {relX : X → X' → Prop} {params : P} {zeros : A → A} {zeros' : A' → A'} {s : S} {s' : S'}
    (hinit : ∀ s s' k, relS s s' → relX (actor.init k s) (actor'.init k s'))
    (hsel : ∀ s s' x x' k, relS s s' → relX x x' →
      relA (actor.selectAction params s x k).action (actor'.selectAction params s' x' k).action ∧
      relX (actor.selectAction params s x k).actorState (actor'.selectAction params s' x' k).actorState)
    (hreset : Both relS (env.reset s) (env'.reset s'))
    (hstep : ∀ s s' a a', relS s s' → relA a a' → Both relS (env.step s a) (env'.step s' a'))
    (hobs : ∀ s s', relS s s' → relO (env.observe s) (env'.observe s'))
    (hmet : ∀ s s', relS s s' → Both relM (env.metrics s) (env'.metrics s'))
    (hrew : ∀ s s' a a', relS s s' → relA a a' → Both relR (env.reward s a) (env'.reward s' a'))
    (hzeros : ∀ a a', relA a a' → relA (zeros a) (zeros' a')) (split : K → K × K) (rng : K) (numSteps : Nat) :
    Both (List.Forall₂ fun e e' => relA e.action e'.action ∧ relS e.state e'.state ∧ relO e.observation e'.observation ∧
        relM e.metrics e'.metrics ∧ relR e.reward e'.reward)
      (rollout env actor split params zeros s rng numSteps) (rollout env' actor' split params zeros' s' rng numSteps) := by
  unfold rollout
  refine hreset.bind fun s0 s0' h0 => ?_
  refine (scan_related (rel := fun (c : RolloutCarry S O X K) (c' : RolloutCarry S' O' X' K) => relS c.state c'.state ∧
      relO c.observation c'.observation ∧ c'.rng = c.rng ∧ relX c.actorState c'.actorState)
    (relY := fun e e' => relA e.action e'.action ∧ relS e.state e'.state ∧ relO e.observation e'.observation ∧
      relM e.metrics e'.metrics ∧ relR e.reward e'.reward)
    (fun c c' hc => rolloutStep_related hsel hstep hobs hmet hrew split hc) numSteps
    { state := s0, observation := env.observe s0, rng := (split rng).2, actorState := actor.init (split rng).1 s0 }
    { state := s0', observation := env'.observe s0', rng := (split rng).2, actorState := actor'.init (split rng).1 s0' }
    ⟨h0, hobs _ _ h0, rfl, hinit _ _ _ h0⟩).bind fun x x' hx => ?_
  obtain ⟨c, out⟩ := x
  obtain ⟨c', out'⟩ := x'
  obtain ⟨⟨g1, g2, -, -⟩, hout⟩ := hx
  simp only at g1 g2 hout ⊢
  have hlast := List.rel_reverse hout
  rw [List.getLast?_eq_head?_reverse, List.getLast?_eq_head?_reverse]
  cases hr : out.reverse <;> cases hr' : out'.reverse <;> rw [hr, hr'] at hlast <;> cases hlast
  · exact .error
  · rename_i hq _
    simp only [List.head?_cons]
    have hz := hzeros _ _ hq.1
    refine (hmet _ _ g1).bind fun m m' hm => ?_
    refine (hrew _ _ _ _ g1 hz).bind fun r r' hrr => ?_
    exact .ok (List.rel_append hout (.cons ⟨hz, g1, g2, hm, hrr⟩ .nil))

end

end Waymax
