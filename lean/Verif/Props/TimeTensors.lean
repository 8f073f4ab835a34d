import Verif.Spec.TimeTensors
import Verif.Props.Frames
/-
C92 and C93: `aggregate_time_tensors` and `preprocess_womd_example` on dictionaries of tensors.
-/

namespace Waymax

/-! ### Concatenation -/

theorem set_zero_eq {s t : List Nat} {a : Nat} (hl : s.length = t.length) (ha : a < s.length) (h : s.set a 0 = t.set a 0) :
    ∃ pre x y post, pre.length = a ∧ s = pre ++ x :: post ∧ t = pre ++ y :: post := by
  refine ⟨s.take a, s[a], t[a], s.drop (a + 1), by simp; omega, by simp, ?_⟩
  rw [List.set_eq_take_append_cons_drop, List.set_eq_take_append_cons_drop, if_pos ha, if_pos (hl ▸ ha)] at h
  have h1 := List.append_inj h (by simp; omega)
  have h2 := (List.cons.inj h1.2).2
  rw [h1.1, h2]
  simp

theorem normAxis_neg {rank : Nat} {a : Nat} {j : Nat} (h : Nd.normAxis rank (-((j : Int) + 1)) = .ok a) : a + j + 1 = rank := by
  unfold Nd.normAxis at h
  have hn : -((j : Int) + 1) < 0 := by omega
  simp only [hn, if_true] at h
  split at h
  · have := Except.ok.inj h
    omega
  · simp at h

theorem normAxis_neg_ok {a j : Nat} : Nd.normAxis (a + j + 1) (-((j : Int) + 1)) = .ok a := by
  unfold Nd.normAxis
  have hn : -((j : Int) + 1) < 0 := by omega
  simp only [hn, if_true]
  rw [if_pos (by push_cast; omega)]
  congr 1
  push_cast
  omega

theorem set_mid (pre post : List Nat) (x y : Nat) : (pre ++ x :: post).set pre.length y = pre ++ y :: post := by
  simp

theorem getD_mid {β : Type} (pre post : List β) (x y : β) : (pre ++ x :: post).getD pre.length y = x := by
  simp [List.getD]

theorem modify_mid {β : Type} (pre post : List β) (x : β) (f : β → β) : (pre ++ x :: post).modify pre.length f = pre ++ f x :: post := by
  induction pre with
  | nil => rfl
  | cons a l ih => simp [ih]

theorem concat_ok {β : Type} {x y z : Nd β} {j : Nat} (h : x.concat y (-((j : Int) + 1)) = .ok z) :
    ∃ pre dx dy post, post.length = j ∧ x.shape = pre ++ dx :: post ∧ y.shape = pre ++ dy :: post ∧ z.shape = pre ++ (dx + dy) :: post ∧
      ∀ i r : List Nat, i.length = pre.length →
        (∀ k < dx, z.get (i ++ k :: r) = x.get (i ++ k :: r)) ∧ (∀ k, z.get (i ++ (dx + k) :: r) = y.get (i ++ k :: r)) := by
  unfold Nd.concat at h
  split at h
  · simp at h
  · rename_i a ha
    split at h
    · rename_i hc
      have hr := normAxis_neg ha
      obtain ⟨pre, dx, dy, post, hpre, hx, hy⟩ := set_zero_eq hc.1 (by omega) hc.2
      have := Except.ok.inj h
      subst this
      refine ⟨pre, dx, dy, post, ?_, hx, hy, ?_, fun i r hi => ?_⟩
      · rw [hx] at hr; simp at hr; omega
      · simp only [hx, hy, ← hpre, getD_mid, set_mid]
      · simp only [hx, ← hpre, getD_mid]
        rw [← hi]
        refine ⟨fun k hk => ?_, fun k => ?_⟩
        · rw [getD_mid, if_pos hk]
        · rw [getD_mid, if_neg (by omega), modify_mid]
          simp
    · simp at h

theorem concat_succeeds {β : Type} {x y : Nd β} {pre post : List Nat} {dx dy : Nat} (hx : x.shape = pre ++ dx :: post)
    (hy : y.shape = pre ++ dy :: post) : ∃ z, x.concat y (-((post.length : Int) + 1)) = .ok z ∧ z.shape = pre ++ (dx + dy) :: post := by
  unfold Nd.concat
  have : x.shape.length = pre.length + post.length + 1 := by rw [hx]; simp; omega
  rw [this, normAxis_neg_ok]
  simp only [hx, hy, set_mid, getD_mid]
  rw [if_pos (by simp; omega)]
  exact ⟨_, rfl, rfl⟩

theorem append_cons_inj {pre pre' post post' : List Nat} {x y : Nat} (hl : post.length = post'.length)
    (h : pre ++ x :: post = pre' ++ y :: post') : pre = pre' ∧ x = y ∧ post = post' := by
  have h1 := List.append_inj' h (by simp [hl])
  exact ⟨h1.1, (List.cons.inj h1.2).1, (List.cons.inj h1.2).2⟩

theorem concat3_ok {p c u a m : Nd ℝ} {j : Nat} (h1 : p.concat c (-((j : Int) + 1)) = .ok m) (h2 : m.concat u (-((j : Int) + 1)) = .ok a) :
    ∃ pre post, post.length = j ∧ JoinedInTime pre post p c u a := by
  obtain ⟨pre, dp, dc, post, hj, hp, hc, hm, g1⟩ := concat_ok h1
  obtain ⟨pre', dm, du, post', hj', hm', hu, ha, g2⟩ := concat_ok h2
  obtain ⟨rfl, rfl, rfl⟩ := append_cons_inj (hj.trans hj'.symm) (hm.symm.trans hm')
  refine ⟨pre, post, hj, dp, dc, du, hp, hc, hu, ha, fun i r hi => ⟨fun k hk => ?_, fun k hk => ?_, fun k hk => (g2 i r hi).2 k⟩⟩
  · rw [(g2 i r hi).1 k (by omega), (g1 i r hi).1 k hk]
  · rw [(g2 i r hi).1 (dp + k) (by omega), (g1 i r hi).2 k]

/-! ### Keys -/

theorem sp_past : statePrefix "past" = ['s','t','a','t','e','/','p','a','s','t','/'] := by decide
theorem sp_current : statePrefix "current" = ['s','t','a','t','e','/','c','u','r','r','e','n','t','/'] := by decide
theorem sp_future : statePrefix "future" = ['s','t','a','t','e','/','f','u','t','u','r','e','/'] := by decide
theorem sp_all : statePrefix "all" = ['s','t','a','t','e','/','a','l','l','/'] := by decide
theorem lp (x : String) : ∃ r, lightPrefix x = 't' :: r := ⟨_, rfl⟩
theorem lp_past : lightPrefix "past" = ['t','r','a','f','f','i','c','_','l','i','g','h','t','_','s','t','a','t','e','/','p','a','s','t','/'] := by decide
theorem lp_current : lightPrefix "current" = ['t','r','a','f','f','i','c','_','l','i','g','h','t','_','s','t','a','t','e','/','c','u','r','r','e','n','t','/'] := by decide
theorem lp_future : lightPrefix "future" = ['t','r','a','f','f','i','c','_','l','i','g','h','t','_','s','t','a','t','e','/','f','u','t','u','r','e','/'] := by decide
theorem lp_all : lightPrefix "all" = ['t','r','a','f','f','i','c','_','l','i','g','h','t','_','s','t','a','t','e','/','a','l','l','/'] := by decide
theorem key_which : "state/which_time".toList = ['s','t','a','t','e','/','w','h','i','c','h','_','t','i','m','e'] := by decide

theorem mem_featuresWith {pre : List Char} {d : Feats} {f : List Char} : f ∈ featuresWith pre d ↔ (d.get? (pre ++ f)).isSome := by
  unfold featuresWith Feats.get?
  rw [List.mem_filterMap]
  constructor
  · rintro ⟨⟨k, v⟩, hm, h⟩
    split at h
    · rename_i hp
      obtain ⟨r, rfl⟩ := List.isPrefixOf_iff_prefix.1 hp
      simp at h
      subst h
      rw [Option.isSome_iff_ne_none, ne_eq, List.lookup_eq_none_iff]
      intro hall
      simpa using hall _ hm
    · simp at h
  · intro h
    obtain ⟨v, hv⟩ := Option.isSome_iff_exists.1 h
    obtain ⟨l1, l2, hd, -⟩ := List.lookup_eq_some_iff.1 hv
    exact ⟨(pre ++ f, v), by simp [hd], by simp⟩

theorem lookup_filter_key {β : Type} (q : List Char → Bool) (k : List Char) (l : List (List Char × β)) :
    List.lookup k (l.filter fun e => q e.1) = if q k then List.lookup k l else none := by
  induction l with
  | nil => simp
  | cons e l ih =>
    obtain ⟨k', v⟩ := e
    by_cases hk : k = k'
    · subst hk
      cases hq : q k
      · rw [List.filter_cons_of_neg (by simpa using hq), ih, hq]; simp
      · rw [List.filter_cons_of_pos (by simpa using hq)]; simp [List.lookup]
    · have hbe : (k == k') = false := by simpa using hk
      cases hq : q k'
      · rw [List.filter_cons_of_neg (by simpa using hq), ih]; simp [List.lookup, hbe]
      · rw [List.filter_cons_of_pos (by simpa using hq)]; simp [List.lookup, hbe, ih]

theorem lookup_append {β : Type} (k : List Char) (l m : List (List Char × β)) :
    List.lookup k (l ++ m) = (List.lookup k l).or (List.lookup k m) := by
  induction l with
  | nil => simp
  | cons e l ih =>
    obtain ⟨k', v⟩ := e
    by_cases hk : (k == k') = true
    · simp [List.lookup, hk]
    · simp [List.lookup, Bool.eq_false_iff.2 hk, ih]

theorem mapM_fetch_keys {β : Type} {key : List Char → List Char} (hkey : Function.Injective key) {g : List Char → Except Err β} :
    ∀ {fs : List (List Char)} {r}, (fs.mapM fun f => do return (key f, ← g f)) = .ok r →
      (∀ f ∈ fs, ∃ v, g f = .ok v ∧ List.lookup (key f) r = some v) ∧ ∀ k, (∀ f ∈ fs, k ≠ key f) → List.lookup k r = none := by
  intro fs
  induction fs with
  | nil =>
    intro r h
    cases h
    simp
  | cons f fs ih =>
    intro r h
    rw [List.mapM_cons] at h
    cases hg : g f with
    | error e => rw [hg] at h; simp [bind, Except.bind] at h
    | ok v =>
      rw [hg] at h
      cases hr : (fs.mapM fun f => do return (key f, ← g f) : Except Err _) with
      | error e => rw [hr] at h; simp [bind, Except.bind, pure, Except.pure] at h
      | ok r' =>
        rw [hr] at h
        have := Except.ok.inj h
        subst this
        obtain ⟨h1, h2⟩ := ih hr
        refine ⟨fun f' hf' => ?_, fun k hk => ?_⟩
        · by_cases he : key f' = key f
          · have := hkey he
            subst this
            exact ⟨v, hg, by simp [List.lookup]⟩
          · rcases List.mem_cons.1 hf' with rfl | hf'
            · exact absurd rfl he
            · obtain ⟨w, hw1, hw2⟩ := h1 f' hf'
              exact ⟨w, hw1, by simp only [List.lookup, beq_eq_false_iff_ne.2 he, hw2]⟩
        · have : k ≠ key f := hk f List.mem_cons_self
          simp only [List.lookup, beq_eq_false_iff_ne.2 this]
          exact h2 k fun f' hf' => hk f' (List.mem_cons_of_mem _ hf')

theorem fetch_ok {d : Feats} {k : List Char} {v : Nd ℝ} : d.fetch k = .ok v ↔ d.get? k = some v := by
  unfold Feats.fetch
  cases d.get? k <;> simp

theorem aggregateFeature_ok {pre : String → List Char} {j : Nat} {d : Feats} {f : List Char} {a : Nd ℝ}
    (h : aggregateFeature pre (-((j : Int) + 1)) d f = .ok a) :
    ∃ p c u, d.get? (pre "past" ++ f) = some p ∧ d.get? (pre "current" ++ f) = some c ∧ d.get? (pre "future" ++ f) = some u ∧
      ∃ bef aft, aft.length = j ∧ JoinedInTime bef aft p c u a := by
  unfold aggregateFeature at h
  cases hp : d.fetch (pre "past" ++ f) with
  | error e => rw [hp] at h; simp [bind, Except.bind] at h
  | ok p =>
    cases hc : d.fetch (pre "current" ++ f) with
    | error e => rw [hp, hc] at h; simp [bind, Except.bind] at h
    | ok c =>
      cases hu : d.fetch (pre "future" ++ f) with
      | error e => rw [hp, hc, hu] at h; simp [bind, Except.bind] at h
      | ok u =>
        rw [hp, hc, hu] at h
        simp only [bind, Except.bind] at h
        cases hm : p.concat c (-((j : Int) + 1)) with
        | error e => rw [hm] at h; simp at h
        | ok m =>
          rw [hm] at h
          exact ⟨p, c, u, fetch_ok.1 hp, fetch_ok.1 hc, fetch_ok.1 hu, concat3_ok hm h⟩

theorem bind_eq_ok {β γ : Type} {x : Except Err β} {f : β → Except Err γ} {c : γ} : (x >>= f) = .ok c ↔ ∃ b, x = .ok b ∧ f b = .ok c := by
  cases x <;> simp [bind, Except.bind]

/-- All the parts of a successful aggregation. -/
theorem aggregate_parts {d r : Feats} (h : aggregateTimeTensors d = .ok r) :
    ∃ states lights pv fv H F, aggregateKind statePrefix (fun _ => -1) d = .ok states ∧ aggregateKind lightPrefix lightAxis d = .ok lights ∧
      d.get? (statePrefix "past" ++ "valid".toList) = some pv ∧ secondDim pv = .ok H ∧
      d.get? (statePrefix "future" ++ "valid".toList) = some fv ∧ secondDim fv = .ok F ∧
      r = (d.filter fun e => !(removedKeys d).contains e.1) ++ ("state/which_time".toList, whichTime H F) :: (lights ++ states) := by
  unfold aggregateTimeTensors at h
  obtain ⟨states, h1, h⟩ := bind_eq_ok.1 h
  obtain ⟨lights, h2, h⟩ := bind_eq_ok.1 h
  obtain ⟨pv, h3, h⟩ := bind_eq_ok.1 h
  obtain ⟨H, h4, h⟩ := bind_eq_ok.1 h
  obtain ⟨fv, h5, h⟩ := bind_eq_ok.1 h
  obtain ⟨F, h6, h⟩ := bind_eq_ok.1 h
  exact ⟨states, lights, pv, fv, H, F, h1, h2, fetch_ok.1 h3, h4, fetch_ok.1 h5, h6, (Except.ok.inj h).symm⟩

theorem kind_parts {pre : String → List Char} {axis : List Char → Int} {d states : Feats} (h : aggregateKind pre axis d = .ok states) :
    (∀ f, (d.get? (pre "current" ++ f)).isSome → ∃ v, aggregateFeature pre (axis f) d f = .ok v ∧ states.get? (pre "all" ++ f) = some v) ∧
    ∀ k, (∀ f, (d.get? (pre "current" ++ f)).isSome → k ≠ pre "all" ++ f) → states.get? k = none := by
  obtain ⟨h1, h2⟩ := mapM_fetch_keys (fun a b hab => List.append_cancel_left hab) h
  exact ⟨fun f hf => h1 f (mem_featuresWith.2 hf), fun k hk => h2 k fun f hf => hk f (mem_featuresWith.1 hf)⟩

theorem mem_removed {d : Feats} {k : List Char} : k ∈ removedKeys d ↔
    (∃ f, (d.get? (statePrefix "current" ++ f)).isSome ∧ k ∈ usedKeys statePrefix f) ∨
    (∃ f, (d.get? (lightPrefix "current" ++ f)).isSome ∧ k ∈ usedKeys lightPrefix f) := by
  simp only [removedKeys, List.mem_append, List.mem_flatMap, mem_featuresWith]

theorem mem_removed_iff {d : Feats} {k : List Char} : k ∈ removedKeys d ↔ IsTimeKey d k := by
  rw [mem_removed]
  constructor
  · rintro (⟨f, hf, h⟩ | ⟨f, hf, h⟩)
    · simp only [usedKeys, List.mem_cons, List.not_mem_nil, or_false] at h
      refine ⟨"state/".toList, by simp, ?_⟩
      rcases h with rfl | rfl | rfl
      · exact ⟨"past".toList, by simp, f, rfl, hf⟩
      · exact ⟨"current".toList, by simp, f, rfl, hf⟩
      · exact ⟨"future".toList, by simp, f, rfl, hf⟩
    · simp only [usedKeys, List.mem_cons, List.not_mem_nil, or_false] at h
      refine ⟨"traffic_light_state/".toList, by simp, ?_⟩
      rcases h with rfl | rfl | rfl
      · exact ⟨"past".toList, by simp, f, rfl, hf⟩
      · exact ⟨"current".toList, by simp, f, rfl, hf⟩
      · exact ⟨"future".toList, by simp, f, rfl, hf⟩
  · rintro ⟨kind, hk, time, ht, f, rfl, hf⟩
    simp only [List.mem_cons, List.not_mem_nil, or_false] at hk ht
    rcases hk with rfl | rfl
    · refine Or.inl ⟨f, hf, ?_⟩
      rcases ht with rfl | rfl | rfl
      · exact List.mem_cons_self
      · exact List.mem_cons_of_mem _ List.mem_cons_self
      · exact List.mem_cons_of_mem _ (List.mem_cons_of_mem _ List.mem_cons_self)
    · refine Or.inr ⟨f, hf, ?_⟩
      rcases ht with rfl | rfl | rfl
      · exact List.mem_cons_self
      · exact List.mem_cons_of_mem _ List.mem_cons_self
      · exact List.mem_cons_of_mem _ (List.mem_cons_of_mem _ List.mem_cons_self)

theorem aggregate_get? {d r : Feats} (h : aggregateTimeTensors d = .ok r) :
    ∃ states lights pv fv H F, aggregateKind statePrefix (fun _ => -1) d = .ok states ∧ aggregateKind lightPrefix lightAxis d = .ok lights ∧
      d.get? (statePrefix "past" ++ "valid".toList) = some pv ∧ secondDim pv = .ok H ∧
      d.get? (statePrefix "future" ++ "valid".toList) = some fv ∧ secondDim fv = .ok F ∧
      ∀ k, r.get? k = (if k ∈ removedKeys d then none else d.get? k).or
        (if k = "state/which_time".toList then some (whichTime H F) else (lights.get? k).or (states.get? k)) := by
  obtain ⟨states, lights, pv, fv, H, F, h1, h2, h3, h4, h5, h6, rfl⟩ := aggregate_parts h
  refine ⟨states, lights, pv, fv, H, F, h1, h2, h3, h4, h5, h6, fun k => ?_⟩
  unfold Feats.get?
  rw [lookup_append, lookup_filter_key (fun k => !(removedKeys d).contains k)]
  congr 1
  · by_cases hk : k ∈ removedKeys d <;> simp [hk]
  · by_cases hk : k = "state/which_time".toList
    · rw [if_pos hk, hk]; simp [List.lookup]
    · rw [if_neg hk]
      simp only [List.lookup, beq_eq_false_iff_ne.2 hk]
      exact lookup_append _ _ _

/-! ### C92: aggregation -/

/-- Each object feature with a current value appears under `state/all/` as its past, current and future values one after the other
along the last axis; all three were present. -/
theorem C92_state_features {d r : Feats} (h : aggregateTimeTensors d = .ok r) (f : List Char)
    (hc : (d.get? ("state/current/".toList ++ f)).isSome) (hnew : d.get? ("state/all/".toList ++ f) = none) :
    ∃ p c u a bef, d.get? ("state/past/".toList ++ f) = some p ∧ d.get? ("state/current/".toList ++ f) = some c ∧
      d.get? ("state/future/".toList ++ f) = some u ∧ r.get? ("state/all/".toList ++ f) = some a ∧ JoinedInTime bef [] p c u a := by
  obtain ⟨states, lights, pv, fv, H, F, h1, h2, -, -, -, -, hr⟩ := aggregate_get? h
  obtain ⟨a, ha, hs⟩ := (kind_parts h1).1 f hc
  obtain ⟨p, c, u, hp, hc', hu, bef, aft, hl, hj⟩ := aggregateFeature_ok (j := 0) ha
  rw [List.length_eq_zero_iff] at hl
  subst hl
  refine ⟨p, c, u, a, bef, hp, hc', hu, ?_, hj⟩
  have hr' := hr (statePrefix "all" ++ f)
  have hL : lights.get? (statePrefix "all" ++ f) = none := by
    refine (kind_parts h2).2 _ fun g _ => ?_
    obtain ⟨x, hx⟩ := lp "all"
    simp [sp_all, hx]
  have hw : statePrefix "all" ++ f ≠ "state/which_time".toList := by simp [sp_all, key_which]
  have hnew' : d.get? (statePrefix "all" ++ f) = none := hnew
  rw [hnew', if_neg hw, hL, hs] at hr'
  simp only [ite_self, Option.none_or] at hr'
  exact hr'

/-- Each traffic light feature likewise: the steps come before the lights, so the joined axis is the second to last one, except for
time stamps, where it is the last. -/
theorem C92_light_features {d r : Feats} (h : aggregateTimeTensors d = .ok r) (f : List Char)
    (hc : (d.get? ("traffic_light_state/current/".toList ++ f)).isSome) (hnew : d.get? ("traffic_light_state/all/".toList ++ f) = none) :
    ∃ p c u a bef aft, d.get? ("traffic_light_state/past/".toList ++ f) = some p ∧
      d.get? ("traffic_light_state/current/".toList ++ f) = some c ∧
      d.get? ("traffic_light_state/future/".toList ++ f) = some u ∧ r.get? ("traffic_light_state/all/".toList ++ f) = some a ∧
      aft.length = (if f = "timestamp_micros".toList then 0 else 1) ∧ JoinedInTime bef aft p c u a := by
  obtain ⟨states, lights, pv, fv, H, F, h1, h2, -, -, -, -, hr⟩ := aggregate_get? h
  obtain ⟨a, ha, hs⟩ := (kind_parts h2).1 f hc
  have haxis : lightAxis f = -(((if f = "timestamp_micros".toList then 0 else 1 : Nat) : Int) + 1) := by
    unfold lightAxis; split <;> rfl
  rw [haxis] at ha
  obtain ⟨p, c, u, hp, hc', hu, bef, aft, hl, hj⟩ := aggregateFeature_ok ha
  refine ⟨p, c, u, a, bef, aft, hp, hc', hu, ?_, hl, hj⟩
  have hr' := hr (lightPrefix "all" ++ f)
  have hw : lightPrefix "all" ++ f ≠ "state/which_time".toList := by
    obtain ⟨x, hx⟩ := lp "all"
    simp [hx, key_which]
  have hnew' : d.get? (lightPrefix "all" ++ f) = none := hnew
  rw [hnew', if_neg hw, hs] at hr'
  simp only [ite_self, Option.none_or, Option.some_or] at hr'
  exact hr'

/-- The keys that were joined are gone. -/
theorem C92_removed {d r : Feats} (h : aggregateTimeTensors d = .ok r) (key : List Char) (hk : IsTimeKey d key) : r.get? key = none := by
  obtain ⟨states, lights, pv, fv, H, F, h1, h2, -, -, -, -, hr⟩ := aggregate_get? h
  have hmem := mem_removed_iff.2 hk
  rw [hr, if_pos hmem, Option.none_or]
  have hcases := mem_removed.1 hmem
  have hw : key ≠ "state/which_time".toList := by
    rintro rfl
    rcases hcases with ⟨f, -, hf⟩ | ⟨f, -, hf⟩
    · simp only [usedKeys, sp_past, sp_current, sp_future, key_which] at hf
      simp at hf
    · obtain ⟨x, hx⟩ := lp "past"
      obtain ⟨y, hy⟩ := lp "current"
      obtain ⟨z, hz⟩ := lp "future"
      simp only [usedKeys, hx, hy, hz, key_which] at hf
      simp at hf
  have hS : ∀ g, key ≠ statePrefix "all" ++ g := by
    rintro g rfl
    rcases hcases with ⟨f, -, hf⟩ | ⟨f, -, hf⟩
    · simp only [usedKeys, sp_past, sp_current, sp_future, sp_all] at hf
      simp at hf
    · obtain ⟨x, hx⟩ := lp "past"
      obtain ⟨y, hy⟩ := lp "current"
      obtain ⟨z, hz⟩ := lp "future"
      simp only [usedKeys, hx, hy, hz, sp_all] at hf
      simp at hf
  have hL : ∀ g, key ≠ lightPrefix "all" ++ g := by
    rintro g rfl
    rcases hcases with ⟨f, -, hf⟩ | ⟨f, -, hf⟩
    · obtain ⟨x, hx⟩ := lp "all"
      simp only [usedKeys, sp_past, sp_current, sp_future, hx] at hf
      simp at hf
    · simp only [usedKeys, lp_past, lp_current, lp_future, lp_all] at hf
      simp at hf
  rw [if_neg hw, (kind_parts h1).2 key fun g _ => hS g, (kind_parts h2).2 key fun g _ => hL g]
  rfl

/-- Every other entry of the dictionary is kept as it is. -/
theorem C92_others {d r : Feats} (h : aggregateTimeTensors d = .ok r) (key : List Char) (v : Nd ℝ) (hv : d.get? key = some v)
    (hk : ¬ IsTimeKey d key) : r.get? key = some v := by
  obtain ⟨states, lights, pv, fv, H, F, -, -, -, -, -, -, hr⟩ := aggregate_get? h
  rw [hr, if_neg (fun hm => hk (mem_removed_iff.1 hm)), hv]
  rfl

/-- Nothing else is added. -/
theorem C92_nothing_else {d r : Feats} (h : aggregateTimeTensors d = .ok r) (key : List Char) (hk : (r.get? key).isSome) :
    (d.get? key).isSome ∨ key = "state/which_time".toList ∨
    (∃ f, key = "state/all/".toList ++ f ∧ (d.get? ("state/current/".toList ++ f)).isSome) ∨
    (∃ f, key = "traffic_light_state/all/".toList ++ f ∧ (d.get? ("traffic_light_state/current/".toList ++ f)).isSome) := by
  obtain ⟨states, lights, pv, fv, H, F, h1, h2, -, -, -, -, hr⟩ := aggregate_get? h
  by_contra hcon
  rw [not_or, not_or, not_or] at hcon
  obtain ⟨c1, c2, c3, c4⟩ := hcon
  have c1' : d.get? key = none := by simpa using c1
  rw [hr, c1', if_neg c2, (kind_parts h1).2 key fun g hg he => c3 ⟨g, he, hg⟩, (kind_parts h2).2 key fun g hg he => c4 ⟨g, he, hg⟩] at hk
  simp at hk

/-- `state/which_time` marks the past steps with -1, the current one with 0 and the future ones with 1, in the order of the joined
features. -/
theorem C92_which_time {d r : Feats} (h : aggregateTimeTensors d = .ok r) (hnew : d.get? "state/which_time".toList = none)
    {n H F : Nat} {pv fv : Nd ℝ} (hpv : d.get? "state/past/valid".toList = some pv) (hfv : d.get? "state/future/valid".toList = some fv)
    (hp : pv.shape = [n, H]) (hf : fv.shape = [n, F]) :
    ∃ w, r.get? "state/which_time".toList = some w ∧ w.shape = [H + 1 + F] ∧
      (∀ k < H, w.get [k] = -1) ∧ w.get [H] = 0 ∧ ∀ k < F, w.get [H + 1 + k] = 1 := by
  obtain ⟨states, lights, pv', fv', H', F', h1, h2, h3, h4, h5, h6, hr⟩ := aggregate_get? h
  have e1 : pv' = pv := Option.some.inj (h3.symm.trans hpv)
  have e2 : fv' = fv := Option.some.inj (h5.symm.trans hfv)
  subst e1 e2
  unfold secondDim at h4 h6
  rw [hp] at h4
  rw [hf] at h6
  have e3 := Except.ok.inj h4
  have e4 := Except.ok.inj h6
  subst e3 e4
  refine ⟨whichTime H F, ?_, rfl, fun k hk => ?_, ?_, fun k _ => ?_⟩
  · rw [hr, hnew, if_pos rfl]; simp only [ite_self, Option.none_or]
  · simp [whichTime, hk]
  · simp [whichTime]
  · show (if H + 1 + k < H then (-1 : ℝ) else if H + 1 + k < H + 1 then 0 else 1) = 1
    rw [if_neg (by omega), if_neg (by omega)]

theorem mapM_fetch_ok {β γ : Type} {g : β → Except Err γ} : ∀ {fs : List β}, (∀ f ∈ fs, ∃ v, g f = .ok v) → ∃ r, fs.mapM g = .ok r
  | [], _ => ⟨[], rfl⟩
  | f :: fs, h => by
    obtain ⟨v, hv⟩ := h f List.mem_cons_self
    obtain ⟨r, hr⟩ := mapM_fetch_ok (fs := fs) fun f' hf' => h f' (List.mem_cons_of_mem _ hf')
    exact ⟨v :: r, by rw [List.mapM_cons, hv, hr]; rfl⟩

theorem aggregateKind_ok {pre : String → List Char} {axis : List Char → Int} {d : Feats}
    (h : ∀ f, (d.get? (pre "current" ++ f)).isSome → ∃ p c u bef aft dp dc du, d.get? (pre "past" ++ f) = some p ∧
      d.get? (pre "current" ++ f) = some c ∧ d.get? (pre "future" ++ f) = some u ∧ axis f = -((aft.length : Int) + 1) ∧
      p.shape = bef ++ dp :: aft ∧ c.shape = bef ++ dc :: aft ∧ u.shape = bef ++ du :: aft) :
    ∃ r, aggregateKind pre axis d = .ok r := by
  refine mapM_fetch_ok fun f hf => ?_
  obtain ⟨p, c, u, bef, aft, dp, dc, du, hp, hc, hu, ha, sp, sc, su⟩ := h f (mem_featuresWith.1 hf)
  obtain ⟨m, hm, sm⟩ := concat_succeeds sp sc
  obtain ⟨a, ha', -⟩ := concat_succeeds sm su
  refine ⟨(pre "all" ++ f, a), ?_⟩
  unfold aggregateFeature
  rw [fetch_ok.2 hp, fetch_ok.2 hc, fetch_ok.2 hu, ha]
  simp only [bind, Except.bind, hm, ha']
  rfl

/-- Aggregation succeeds when every feature with a current value also has past and future values whose shapes differ at most in the
step axis, and the validity flags have a step axis. -/
theorem C92_succeeds (d : Feats)
    (hstate : ∀ f, (d.get? ("state/current/".toList ++ f)).isSome → ∃ p c u bef dp dc du, d.get? ("state/past/".toList ++ f) = some p ∧
      d.get? ("state/current/".toList ++ f) = some c ∧ d.get? ("state/future/".toList ++ f) = some u ∧
      p.shape = bef ++ [dp] ∧ c.shape = bef ++ [dc] ∧ u.shape = bef ++ [du])
    (hlight : ∀ f, (d.get? ("traffic_light_state/current/".toList ++ f)).isSome → ∃ p c u bef aft dp dc du,
      d.get? ("traffic_light_state/past/".toList ++ f) = some p ∧ d.get? ("traffic_light_state/current/".toList ++ f) = some c ∧
      d.get? ("traffic_light_state/future/".toList ++ f) = some u ∧ aft.length = (if f = "timestamp_micros".toList then 0 else 1) ∧
      p.shape = bef ++ dp :: aft ∧ c.shape = bef ++ dc :: aft ∧ u.shape = bef ++ du :: aft)
    (hvalid : ∃ pv fv n H m F, d.get? "state/past/valid".toList = some pv ∧ d.get? "state/future/valid".toList = some fv ∧
      pv.shape = [n, H] ∧ fv.shape = [m, F]) :
    ∃ r, aggregateTimeTensors d = .ok r := by
  obtain ⟨states, h1⟩ := aggregateKind_ok (pre := statePrefix) (axis := fun _ => -1) (d := d) fun f hf => by
    obtain ⟨p, c, u, bef, dp, dc, du, hp, hc, hu, sp, sc, su⟩ := hstate f hf
    exact ⟨p, c, u, bef, [], dp, dc, du, hp, hc, hu, rfl, sp, sc, su⟩
  obtain ⟨lights, h2⟩ := aggregateKind_ok (pre := lightPrefix) (axis := lightAxis) (d := d) fun f hf => by
    obtain ⟨p, c, u, bef, aft, dp, dc, du, hp, hc, hu, hl, sp, sc, su⟩ := hlight f hf
    refine ⟨p, c, u, bef, aft, dp, dc, du, hp, hc, hu, ?_, sp, sc, su⟩
    rw [hl]
    unfold lightAxis
    split <;> rfl
  obtain ⟨pv, fv, n, H, m, F, hp, hf, sp, sf⟩ := hvalid
  have hp' : d.fetch (statePrefix "past" ++ "valid".toList) = .ok pv := fetch_ok.2 hp
  have hf' : d.fetch (statePrefix "future" ++ "valid".toList) = .ok fv := fetch_ok.2 hf
  have s1 : secondDim pv = .ok H := by unfold secondDim; rw [sp]
  have s2 : secondDim fv = .ok F := by unfold secondDim; rw [sf]
  refine ⟨(d.filter fun e => !(removedKeys d).contains e.1) ++ ("state/which_time".toList, whichTime H F) :: (lights ++ states), ?_⟩
  unfold aggregateTimeTensors
  simp only [h1, h2, hp', hf', s1, s2, bind, Except.bind]
  rfl

/-! ### C93: preprocessing -/

/-- With `aggregate_timesteps`, headings are replaced by the same directions in `[-π, π)`; nothing else differs from the aggregated
dictionary. -/
theorem C93_headings {d a r : Feats} (ha : aggregateTimeTensors d = .ok a) (h : preprocessWomd d true none = .ok r) :
    (∃ y w, a.get? "state/all/bbox_yaw".toList = some y ∧ r.get? "state/all/bbox_yaw".toList = some w ∧ w.shape = y.shape ∧
      ∀ idx, AnglesAgree (w.get idx) (y.get idx) ∧ -Real.pi ≤ w.get idx ∧ w.get idx < Real.pi) ∧
    ∀ key, key ≠ "state/all/bbox_yaw".toList → r.get? key = a.get? key := by
  unfold preprocessWomd at h
  obtain ⟨q, hq, h⟩ := bind_eq_ok.1 h
  unfold processTime at hq
  rw [if_pos rfl] at hq
  obtain ⟨a', ha', hq⟩ := bind_eq_ok.1 hq
  rw [ha] at ha'
  cases ha'
  obtain ⟨y, hy, hq⟩ := bind_eq_ok.1 hq
  have hq' := Except.ok.inj hq
  have hr := Except.ok.inj h
  subst hq' hr
  refine ⟨⟨y, y.map wrapYaws, fetch_ok.1 hy, ?_, rfl, fun idx => ⟨?_, (C21_wrap_range _).1, (C21_wrap_range _).2⟩⟩, fun key hk => ?_⟩
  · simp only [Feats.get?, List.lookup, beq_self_eq_true]
  · obtain ⟨k, hk⟩ := ((C21_wrap_unique (y.get idx) _).1 rfl).2.2
    exact ⟨-k, by show wrapYaws (y.get idx) = _; rw [hk]; push_cast; ring⟩
  · simp only [Feats.get?, List.lookup, beq_eq_false_iff_ne.2 hk]

theorem preprocess_limit {d r : Feats} {agg : Bool} {m : Int} (h : preprocessWomd d agg (some m) = .ok r) :
    ∃ q, preprocessWomd d agg none = .ok q ∧
      q.mapM (limitEntry m) = .ok r := by
  unfold preprocessWomd at h ⊢
  obtain ⟨q, hq, h⟩ := bind_eq_ok.1 h
  exact ⟨q, by rw [hq]; rfl, h⟩

theorem mapM_values {g : List Char × Nd ℝ → Except Err (List Char × Nd ℝ)} (hkey : ∀ e e', g e = .ok e' → e'.1 = e.1) :
    ∀ {q r : Feats}, q.mapM g = .ok r → ∀ key, (q.get? key = none → r.get? key = none) ∧
      ∀ v, q.get? key = some v → ∃ w, g (key, v) = .ok (key, w) ∧ r.get? key = some w
  | [], r, h, key => by
    cases h
    exact ⟨fun h => h, fun v hv => by simp [Feats.get?] at hv⟩
  | e :: q, r, h, key => by
    rw [List.mapM_cons] at h
    obtain ⟨e', he, h⟩ := bind_eq_ok.1 h
    obtain ⟨r', hr, h⟩ := bind_eq_ok.1 h
    have := Except.ok.inj h
    subst this
    obtain ⟨k, v⟩ := e
    obtain ⟨k', v'⟩ := e'
    have hk := hkey _ _ he
    simp only at hk
    subst hk
    by_cases hkk : key = k'
    · subst hkk
      refine ⟨fun hn => by simp [Feats.get?, List.lookup] at hn, fun w hw => ?_⟩
      simp only [Feats.get?, List.lookup, beq_self_eq_true, Option.some.injEq] at hw
      subst hw
      exact ⟨v', he, by simp only [Feats.get?, List.lookup, beq_self_eq_true]⟩
    · have hb : (key == k') = false := beq_eq_false_iff_ne.2 hkk
      have ih := mapM_values hkey hr key
      simp only [Feats.get?, List.lookup, hb] at ih ⊢
      exact ih

/-- `v[:m]` of every feature under `state/`, for any integer `m`. -/
theorem limit_int {d r q : Feats} {agg : Bool} {m : Int} (h : preprocessWomd d agg (some m) = .ok r)
    (hq : preprocessWomd d agg none = .ok q) (key : List Char) :
    (q.get? key = none → r.get? key = none) ∧ ∀ v, q.get? key = some v →
      ∃ w, r.get? key = some w ∧ (¬ "state/".toList <+: key → w = v) ∧
        ("state/".toList <+: key → ∃ rows rest, v.shape = rows :: rest ∧ w.shape = (if m < 0 then (max 0 (rows + m)).toNat else min rows m.toNat) :: rest ∧ ∀ idx, w.get idx = v.get idx) := by
  obtain ⟨q', hq', h⟩ := preprocess_limit h
  rw [hq] at hq'
  cases hq'
  have hkey : ∀ e e' : List Char × Nd ℝ, limitEntry m e = .ok e' → e'.1 = e.1 := by
    intro e e' he
    unfold limitEntry at he
    split at he
    · obtain ⟨w, -, he⟩ := bind_eq_ok.1 he
      rw [← Except.ok.inj he]
    · rw [← Except.ok.inj he]
  obtain ⟨h1, h2⟩ := mapM_values hkey h key
  refine ⟨h1, fun v hv => ?_⟩
  obtain ⟨w, hw, hr⟩ := h2 v hv
  unfold limitEntry at hw
  refine ⟨w, hr, fun hn => ?_, fun hp => ?_⟩
  · rw [if_neg (by rwa [List.isPrefixOf_iff_prefix])] at hw
    exact (congrArg Prod.snd (Except.ok.inj hw)).symm
  · rw [if_pos (by rwa [List.isPrefixOf_iff_prefix])] at hw
    obtain ⟨w', hw', hw⟩ := bind_eq_ok.1 hw
    have := congrArg Prod.snd (Except.ok.inj hw)
    simp only at this
    subst this
    unfold Nd.takeFirst at hw'
    split at hw'
    · rename_i rows rest hs
      have := Except.ok.inj hw'
      subst this
      exact ⟨rows, rest, hs, rfl, fun _ => rfl⟩
    · simp at hw'

/-- With `max_num_objects = m`, every feature under `state/` is cut to its first `m` rows, and every other feature is kept. -/
theorem C93_limit {d r q : Feats} {agg : Bool} {m : Nat} (h : preprocessWomd d agg (some m) = .ok r)
    (hq : preprocessWomd d agg none = .ok q) (key : List Char) :
    (q.get? key = none → r.get? key = none) ∧ ∀ v, q.get? key = some v →
      ∃ w, r.get? key = some w ∧ (¬ "state/".toList <+: key → w = v) ∧
        ("state/".toList <+: key → ∃ rows rest, v.shape = rows :: rest ∧ w.shape = min rows m :: rest ∧ ∀ idx, w.get idx = v.get idx) := by
  obtain ⟨h1, h2⟩ := limit_int h hq key
  refine ⟨h1, fun v hv => ?_⟩
  obtain ⟨w, hw, ha, hb⟩ := h2 v hv
  refine ⟨w, hw, ha, fun hp => ?_⟩
  obtain ⟨rows, rest, e1, e2, e3⟩ := hb hp
  exact ⟨rows, rest, e1, by rw [e2, if_neg (by omega)]; simp, e3⟩

/-- A negative limit `-k` is not rejected: every feature under `state/` loses its last `k` rows. -/
theorem C93_negative {d r q : Feats} {agg : Bool} {k : Nat} (hk : 0 < k) (h : preprocessWomd d agg (some (-(k : Int))) = .ok r)
    (hq : preprocessWomd d agg none = .ok q) (key : List Char) :
    (q.get? key = none → r.get? key = none) ∧ ∀ v, q.get? key = some v →
      ∃ w, r.get? key = some w ∧ (¬ "state/".toList <+: key → w = v) ∧
        ("state/".toList <+: key → ∃ rows rest, v.shape = rows :: rest ∧ w.shape = (rows - k) :: rest ∧ ∀ idx, w.get idx = v.get idx) := by
  obtain ⟨h1, h2⟩ := limit_int h hq key
  refine ⟨h1, fun v hv => ?_⟩
  obtain ⟨w, hw, ha, hb⟩ := h2 v hv
  refine ⟨w, hw, ha, fun hp => ?_⟩
  obtain ⟨rows, rest, e1, e2, e3⟩ := hb hp
  refine ⟨rows, rest, e1, ?_, e3⟩
  rw [e2, if_pos (by omega)]
  congr 1
  omega

/-- C93, full expectation: limiting the number of objects keeps the SDC, and changes no feature that is not per object. -/
def C93_full : Prop :=
  ∀ (d q r : Feats) (agg : Bool) (m : Nat), preprocessWomd d agg none = .ok q → preprocessWomd d agg (some m) = .ok r → 1 ≤ m →
    (∀ v n i, q.get? "state/is_sdc".toList = some v → v.shape = [n] → i < n → v.get [i] = 1 →
      ∃ w k j, r.get? "state/is_sdc".toList = some w ∧ w.shape = [k] ∧ j < k ∧ w.get [j] = 1) ∧
    r.get? "state/which_time".toList = q.get? "state/which_time".toList

theorem limit_one {k : List Char} (hk : "state/".toList.isPrefixOf k = true) {v : Nd ℝ} {n : Nat} (hs : v.shape = [n]) (m : Nat) :
    preprocessWomd [(k, v)] false (some m) = .ok [(k, { shape := [min n m], get := v.get })] := by
  show List.mapM (limitEntry m) [(k, v)] = _
  have h : limitEntry m (k, v) = .ok (k, { shape := [min n m], get := v.get }) := by
    unfold limitEntry Nd.takeFirst
    rw [if_pos hk, hs]
    simp [bind, Except.bind, pure, Except.pure]
  rw [List.mapM_cons, h]
  rfl

theorem get_one (k : List Char) (v : Nd ℝ) : Feats.get? [(k, v)] k = some v := by
  simp only [Feats.get?, List.lookup, beq_self_eq_true]

/-- Two objects of which the second is the SDC. -/
def secondIsSdc : Nd ℝ := { shape := [2], get := fun idx => if idx = [1] then 1 else 0 }

/-- Limited to one object: no SDC is left. -/
theorem C93_violated : ¬ C93_full := by
  intro hall
  have hpre : "state/".toList.isPrefixOf "state/is_sdc".toList = true := by decide
  obtain ⟨w, k, j, hw, hs, hj, hg⟩ := (hall _ _ _ false 1 rfl (limit_one hpre (v := secondIsSdc) (n := 2) rfl 1) (le_refl _)).1
    secondIsSdc 2 1 (get_one _ _) rfl (by omega) (by simp [secondIsSdc])
  rw [get_one] at hw
  have := Option.some.inj hw
  subst this
  have hk : k = 1 := by simpa using hs.symm
  have : j = 0 := by omega
  subst this
  simp [secondIsSdc] at hg

/-- What holds: the SDC stays when it is among the first `m` objects, and `state/which_time` is unchanged when there are no more than
`m` steps. Missing: an SDC further down is dropped (`C93_violated`), and with more steps than objects `state/which_time` is cut
although its axis is time (`C93_which_time_cut`). -/
theorem C93_keeps_partial {d q r : Feats} {agg : Bool} {m : Nat} (hq : preprocessWomd d agg none = .ok q)
    (hr : preprocessWomd d agg (some m) = .ok r) :
    (∀ v n i, q.get? "state/is_sdc".toList = some v → v.shape = [n] → i < n → v.get [i] = 1 → i < m →
      ∃ w, r.get? "state/is_sdc".toList = some w ∧ w.shape = [min n m] ∧ w.get [i] = 1) ∧
    ∀ v steps, q.get? "state/which_time".toList = some v → v.shape = [steps] → steps ≤ m →
      r.get? "state/which_time".toList = some v := by
  have hp1 : "state/".toList <+: "state/is_sdc".toList := by rw [← List.isPrefixOf_iff_prefix]; decide
  have hp2 : "state/".toList <+: "state/which_time".toList := by rw [← List.isPrefixOf_iff_prefix]; decide
  refine ⟨fun v n i hv hs hi hg him => ?_, fun v steps hv hs hst => ?_⟩
  · obtain ⟨w, hw, -, hc⟩ := (C93_limit hr hq _).2 v hv
    obtain ⟨rows, rest, h1, h2, h3⟩ := hc hp1
    rw [hs] at h1
    obtain ⟨rfl, rfl⟩ := List.cons.inj h1
    exact ⟨w, hw, h2, by rw [h3]; exact hg⟩
  · obtain ⟨w, hw, -, hc⟩ := (C93_limit hr hq _).2 v hv
    obtain ⟨rows, rest, h1, h2, h3⟩ := hc hp2
    rw [hs] at h1
    obtain ⟨rfl, rfl⟩ := List.cons.inj h1
    rw [Nat.min_eq_left hst] at h2
    rw [hw]
    cases v; cases w
    simp only at hs h2 h3
    rw [h2, hs, funext h3]

/-- With more steps than `max_num_objects` the list of step marks is cut to `m` entries. -/
theorem C93_which_time_cut {d q r : Feats} {agg : Bool} {m : Nat} (hq : preprocessWomd d agg none = .ok q)
    (hr : preprocessWomd d agg (some m) = .ok r) {v : Nd ℝ} {steps : Nat} (hv : q.get? "state/which_time".toList = some v)
    (hs : v.shape = [steps]) (hm : m < steps) : ∃ w, r.get? "state/which_time".toList = some w ∧ w.shape = [m] := by
  have hp2 : "state/".toList <+: "state/which_time".toList := by rw [← List.isPrefixOf_iff_prefix]; decide
  obtain ⟨w, hw, -, hc⟩ := (C93_limit hr hq _).2 v hv
  obtain ⟨rows, rest, h1, h2, h3⟩ := hc hp2
  rw [hs] at h1
  obtain ⟨rfl, rfl⟩ := List.cons.inj h1
  exact ⟨w, hw, by rw [h2, Nat.min_eq_right (by omega)]⟩

/-! ### A concrete dictionary -/

/-- Two objects; one past, one current and two future steps. -/
def tinyDict : Feats :=
  let t : Nat → Nd ℝ := fun k => { shape := [2, k], get := fun idx => k + idx.sum }
  [("state/past/valid".toList, t 1), ("state/current/valid".toList, t 1), ("state/future/valid".toList, t 2),
   ("state/past/bbox_yaw".toList, t 1), ("state/current/bbox_yaw".toList, t 1), ("state/future/bbox_yaw".toList, t 2),
   ("state/id".toList, { shape := [2], get := fun _ => 5 })]

theorem tinyDict_ok : ∃ r, aggregateTimeTensors tinyDict = .ok r := ⟨_, rfl⟩

/-- The hypotheses of `C92_state_features`, `C92_removed` and `C92_which_time` hold of it. -/
example : (∃ r, aggregateTimeTensors tinyDict = .ok r) ∧ (tinyDict.get? ("state/current/".toList ++ "bbox_yaw".toList)).isSome ∧
    tinyDict.get? ("state/all/".toList ++ "bbox_yaw".toList) = none ∧ IsTimeKey tinyDict "state/future/valid".toList ∧
    tinyDict.get? "state/which_time".toList = none :=
  ⟨tinyDict_ok, rfl, rfl, ⟨"state/".toList, by simp, "future".toList, by simp, "valid".toList, rfl, rfl⟩, rfl⟩

/-- Limited to three objects it keeps its two objects but loses one of its four step marks. -/
example : ∃ q r w, preprocessWomd tinyDict true none = .ok q ∧ preprocessWomd tinyDict true (some (3 : Nat)) = .ok r ∧
    r.get? "state/which_time".toList = some w ∧ w.shape = [3] := by
  obtain ⟨q, hq⟩ : ∃ q, preprocessWomd tinyDict true none = .ok q := ⟨_, rfl⟩
  obtain ⟨r, hr⟩ : ∃ r, preprocessWomd tinyDict true (some (3 : Nat)) = .ok r := ⟨_, rfl⟩
  obtain ⟨a, ha⟩ := tinyDict_ok
  obtain ⟨w, hw, hs, -⟩ := C92_which_time ha rfl (n := 2) (H := 1) (F := 2) rfl rfl rfl rfl
  have hq' : q.get? "state/which_time".toList = some w := by
    rw [(C93_headings ha hq).2 _ (by decide)]; exact hw
  obtain ⟨w', h1, h2⟩ := C93_which_time_cut hq hr hq' hs (by decide)
  exact ⟨q, r, w', hq, hr, h1, h2⟩

end Waymax
