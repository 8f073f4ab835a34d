import Verif.Spec.BatchRollout
import Verif.Props.BatchReward
import Verif.Props.Rollout
/-
C120: a rollout of a batch is, scenario by scenario, the rollout of the scenario.
-/

namespace Waymax

/-! ### Rollouts of related environments -/

section
variable {S A O M R X K P C S' A' O' M' R' X' C' : Type}

theorem ExRel.cases {α β : Type} {Q : α → β → Prop} {a : Except Err α} {b : Except Err β} (h : ExRel Q a b) :
    (∃ x y, a = .ok x ∧ b = .ok y ∧ Q x y) ∨ ∃ e, a = .error e ∧ b = .error e := by
  cases a <;> cases b
  · exact .inr ⟨_, rfl, congrArg _ (Eq.symm h)⟩
  · exact h.elim
  · exact h.elim
  · exact .inl ⟨_, _, rfl, rfl, h⟩

theorem ExRel.bind {α β γ δ : Type} {Q : α → β → Prop} {Q' : γ → δ → Prop} {a : Except Err α} {b : Except Err β} (h : ExRel Q a b)
    {f : α → Except Err γ} {g : β → Except Err δ} (hfg : ∀ x y, Q x y → ExRel Q' (f x) (g y)) : ExRel Q' (a >>= f) (b >>= g) := by
  rcases h.cases with ⟨x, y, rfl, rfl, hq⟩ | ⟨e, rfl, rfl⟩
  · exact hfg x y hq
  · rfl

theorem scan_rel {Γ Γ' Y Y' : Type} {Qc : Γ → Γ' → Prop} {Qy : Y → Y' → Prop} {f : Γ → Except Err (Γ × Y)} {g : Γ' → Except Err (Γ' × Y')}
    (h : ∀ c c', Qc c c' → ExRel (fun r r' => Qc r.1 r'.1 ∧ Qy r.2 r'.2) (f c) (g c')) (k : Nat) :
    ∀ c c', Qc c c' → ExRel (fun r r' => Qc r.1 r'.1 ∧ List.Forall₂ Qy r.2 r'.2) (scan f k c) (scan g k c') := by
  induction k with
  | zero => exact fun c c' hc => ⟨hc, .nil⟩
  | succ k ih =>
    intro c c' hc
    unfold scan
    exact (h c c' hc).bind fun r r' hr => (ih r.1 r'.1 hr.1).bind fun q q' hq => ⟨hq.1, .cons hr.2 hq.2⟩

theorem forall₂_getLast? {α β : Type} {Q : α → β → Prop} {l : List α} {l' : List β} (h : List.Forall₂ Q l l') :
    (l.getLast? = none ∧ l'.getLast? = none) ∨ ∃ x y, l.getLast? = some x ∧ l'.getLast? = some y ∧ Q x y := by
  induction h with
  | nil => exact .inl ⟨rfl, rfl⟩
  | @cons a b l l' hab ht ih =>
    right
    rcases ih with ⟨h1, h2⟩ | ⟨x, y, h1, h2, h3⟩
    · rw [List.getLast?_eq_none_iff] at h1 h2
      subst h1; subst h2
      exact ⟨a, b, rfl, rfl, hab⟩
    · refine ⟨x, y, ?_, ?_, h3⟩
      · rw [List.getLast?_cons, h1]; rfl
      · rw [List.getLast?_cons, h2]; rfl

/-- Two rollouts whose environments and actors correspond step by step correspond entry by entry. -/
theorem rollout_rel {E : RolloutEnv S A O M R} {e : Env S' A' O' M' R'} {act : RaisingActor S A X K P C} {act' : Actor S' A' X' K P C'}
    {split : K → K × K} {params : P} {z : A → A} {z' : A' → A'} {Qs : S → S' → Prop} {Qa : A → A' → Prop} {Qo : O → O' → Prop}
    {Qm : M → M' → Prop} {Qr : R → R' → Prop} {Qx : X → X' → Prop}
    (hstep : ∀ s s' a a', Qs s s' → Qa a a' → ExRel Qs (E.step s a) (e.step s' a'))
    (hobs : ∀ s s', Qs s s' → Qo (E.observe s) (e.observe s'))
    (hmet : ∀ s s', Qs s s' → ExRel Qm (E.metrics s) (e.metrics s'))
    (hrew : ∀ s s' a a', Qs s s' → Qa a a' → ExRel Qr (E.reward s a) (e.reward s' a'))
    (hinit : ∀ k s s', Qs s s' → Qx (act.init k s) (act'.init k s'))
    (hsel : ∀ k s s' x x', Qs s s' → Qx x x' → ∃ o, act.selectAction params s x k = .ok o ∧
      Qa o.action (act'.selectAction params s' x' k).action ∧ Qx o.actorState (act'.selectAction params s' x' k).actorState)
    (hz : ∀ a a', Qa a a' → Qa (z a) (z' a')) {s : S} {s' : S'} (hreset : ExRel Qs (E.reset s) (e.reset s')) (rng : K) (k : Nat) :
    ExRel (List.Forall₂ fun y y' => Qs y.state y'.state ∧ Qa y.action y'.action ∧ Qo y.observation y'.observation ∧
      Qm y.metrics y'.metrics ∧ Qr y.reward y'.reward)
      (rolloutEntries E act split params z s rng k) (rollout e act' split params z' s' rng k) := by
  unfold rolloutEntries rollout
  refine hreset.bind fun r r' hr => ?_
  refine ExRel.bind (scan_rel (Qc := fun c c' => Qs c.state c'.state ∧ Qo c.observation c'.observation ∧ c.rng = c'.rng ∧
    Qx c.actorState c'.actorState) (Qy := fun y y' => Qs y.state y'.state ∧ Qa y.action y'.action ∧ Qo y.observation y'.observation ∧
      Qm y.metrics y'.metrics ∧ Qr y.reward y'.reward) ?_ k _ _ ⟨hr, hobs _ _ hr, rfl, hinit _ _ _ hr⟩) ?_
  · rintro c c' ⟨h1, h2, h3, h4⟩
    unfold rolloutStepE rolloutStep
    obtain ⟨o, ho, ha, hx⟩ := hsel (split c.rng).1 _ _ _ _ h1 h4
    rw [ho, exc_ok_bind]
    rw [h3] at ha hx ⊢
    exact (hstep _ _ _ _ h1 ha).bind fun n n' hn => (hmet _ _ h1).bind fun m m' hm => (hrew _ _ _ _ h1 ha).bind fun w w' hw =>
      ⟨⟨hn, hobs _ _ hn, rfl, hx⟩, h1, ha, h2, hm, hw⟩
  · rintro ⟨c, ys⟩ ⟨c', ys'⟩ ⟨⟨h1, h2, -, -⟩, hys⟩
    dsimp only at h1 h2 hys ⊢
    rcases forall₂_getLast? hys with ⟨l1, l2⟩ | ⟨y, y', l1, l2, -, hy, -⟩
    · rw [l1, l2]; rfl
    · rw [l1, l2]
      exact (hmet _ _ h1).bind fun m m' hm => (hrew _ _ _ _ h1 (hz _ _ hy)).bind fun w w' hw =>
        List.rel_append hys (.cons ⟨h1, hz _ _ hy, h2, hm, hw⟩ .nil)

/-- What holds for the states and actions along a rollout. -/
theorem rolloutEntries_all {E : RolloutEnv S A O M R} {act : RaisingActor S A X K P C} {split : K → K × K} {params : P} {z : A → A}
    {Gs : S → Prop} {Ga : A → Prop} (hstep : ∀ s a s', Gs s → Ga a → E.step s a = .ok s' → Gs s')
    (hsel : ∀ k s x o, Gs s → act.selectAction params s x k = .ok o → Ga o.action) (hz : ∀ a, Ga a → Ga (z a)) {s : S}
    (hreset : ∀ s', E.reset s = .ok s' → Gs s') {rng : K} {k : Nat} {es : List (RolloutEntry S A O M R)}
    (h : rolloutEntries E act split params z s rng k = .ok es) :
    es.length = k + 1 ∧ ∀ e ∈ es, Gs e.state ∧ Ga e.action ∧ e.observation = E.observe e.state ∧ E.metrics e.state = .ok e.metrics ∧
      E.reward e.state e.action = .ok e.reward := by
  have hscan : ∀ k c r, Gs c.state → c.observation = E.observe c.state → scan (rolloutStepE E act split params) k c = .ok r →
      r.2.length = k ∧ (Gs r.1.state ∧ r.1.observation = E.observe r.1.state) ∧ ∀ e ∈ r.2, Gs e.state ∧ Ga e.action ∧ e.observation = E.observe e.state ∧
        E.metrics e.state = .ok e.metrics ∧ E.reward e.state e.action = .ok e.reward := by
    intro k
    induction k with
    | zero =>
      intro c r hc ho hr
      obtain rfl := Except.ok.inj hr
      exact ⟨rfl, ⟨hc, ho⟩, by simp⟩
    | succ k ih =>
      intro c r hc ho hr
      unfold scan at hr
      obtain ⟨⟨c1, y⟩, h1, hr⟩ := bind_eq_ok.1 hr
      obtain ⟨⟨c2, ys⟩, h2, hr⟩ := bind_eq_ok.1 hr
      obtain rfl := Except.ok.inj hr
      unfold rolloutStepE at h1
      obtain ⟨o, e1, h1⟩ := bind_eq_ok.1 h1
      obtain ⟨sn, e2, h1⟩ := bind_eq_ok.1 h1
      obtain ⟨m, e3, h1⟩ := bind_eq_ok.1 h1
      obtain ⟨w, e4, h1⟩ := bind_eq_ok.1 h1
      have := Prod.mk.inj (Except.ok.inj h1)
      obtain ⟨rfl, rfl⟩ := this
      have ha := hsel _ _ _ _ hc e1
      obtain ⟨l, hs, hall⟩ := ih _ _ (hstep _ _ _ hc ha e2) rfl h2
      refine ⟨by simpa using l, hs, fun e he => ?_⟩
      rcases List.mem_cons.1 he with rfl | he
      · exact ⟨hc, ha, ho, e3, e4⟩
      · exact hall e he
  unfold rolloutEntries at h
  obtain ⟨s0, h0, h⟩ := bind_eq_ok.1 h
  dsimp only at h
  obtain ⟨⟨c, ys⟩, h1, h⟩ := bind_eq_ok.1 h
  obtain ⟨l, ⟨g1, g2⟩, hall⟩ := hscan k _ _ (hreset _ h0) rfl h1
  dsimp only at h l g1 g2 hall
  cases hl : ys.getLast? with
  | none => rw [hl] at h; cases h
  | some y =>
    rw [hl] at h
    obtain ⟨m, e3, h⟩ := bind_eq_ok.1 h
    obtain ⟨w, e4, h⟩ := bind_eq_ok.1 h
    obtain rfl := Except.ok.inj h
    refine ⟨by simp [l], fun e he => ?_⟩
    rcases List.mem_append.1 he with he | he
    · exact hall e he
    · obtain rfl := List.mem_singleton.1 he
      exact ⟨g1, hz _ (hall y (List.mem_of_getLast? hl)).2.1, g2, e3, e4⟩

end

end Waymax
