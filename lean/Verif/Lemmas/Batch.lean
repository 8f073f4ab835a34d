import Verif.Spec.Batch
import Verif.Lemmas.Array
import Verif.Lemmas.Sat
/- Array-level lemmas for `Verif.Props.Batch`. -/

namespace Waymax

section
variable {α β γ δ : Type}

@[simp] theorem exc_ok_bind {ε : Type} (a : β) (f : β → Except ε γ) : (Except.ok a >>= f) = f a := rfl
@[simp] theorem exc_error_bind {ε : Type} (e : ε) (f : β → Except ε γ) : (Except.error e >>= f) = Except.error e := rfl
@[simp] theorem exc_pure {ε : Type} (a : β) : (pure a : Except ε β) = Except.ok a := rfl

theorem assertThat_ok {p : Prop} [Decidable p] {e : Err} (h : p) : assertThat p e = .ok () := by simp [assertThat, h]
theorem assertThat_error {p : Prop} [Decidable p] {e : Err} (h : ¬ p) : assertThat p e = .error e := by simp [assertThat, h]
theorem of_assertThat {p : Prop} [Decidable p] {e : Err} (h : assertThat p e = .ok ()) : p := by
  by_contra hp
  simp [assertThat, hp] at h

theorem InRange.append {s t p q : List Nat} (h : InRange s p) (h' : InRange t q) : InRange (s ++ t) (p ++ q) :=
  List.rel_append h h'

theorem InRange.snoc {s p : List Nat} {d i : Nat} (h : InRange s p) (hi : i < d) : InRange (s ++ [d]) (p ++ [i]) :=
  h.append (.cons hi .nil)

theorem InRange.snoc2 {s p : List Nat} {d i e j : Nat} (h : InRange s p) (hi : i < d) (hj : j < e) :
    InRange (s ++ [d, e]) (p ++ [i, j]) :=
  h.append (.cons hi (.cons hj .nil))

theorem zip_shaped (f : β → γ → δ) {x : Nd β} {y : Nd γ} {s : List Nat} (hx : x.shape = s) (hy : y.shape = s) :
    ∃ r, Nd.zip f x y = .ok r ∧ r.shape = s ∧ ∀ idx, InRange s idx → r.get idx = f (x.get idx) (y.get idx) := by
  subst hx
  exact zip_same f hy.symm

theorem where3_shaped {c : Nd Bool} {a b : Nd β} {s : List Nat} (hc : c.shape = s) (ha : a.shape = s) (hb : b.shape = s) :
    ∃ r, Nd.where3 c a b = .ok r ∧ r.shape = s ∧
      ∀ idx, InRange s idx → r.get idx = if c.get idx = true then a.get idx else b.get idx := by
  obtain ⟨ab, h1, h2, h3⟩ := zip_shaped (fun (u v : β) => (u, v)) ha hb
  obtain ⟨r, h4, h5, h6⟩ := zip_shaped (fun (c : Bool) (uv : β × β) => if c then uv.1 else uv.2) hc h2
  refine ⟨r, ?_, h5, fun idx hidx => ?_⟩
  · simp only [Nd.where3, h1, exc_ok_bind, h4]
  · rw [h6 idx hidx, h3 idx hidx]

theorem normAxis_last' (pre : List Nat) (d : Nat) : Nd.normAxis (pre ++ [d]).length (-1) = .ok pre.length := by
  rw [normAxis_last (by simp)]
  simp

theorem getD_snoc (pre : List Nat) (d : Nat) : (pre ++ [d]).getD pre.length 0 = d := getD_append_cons rfl

theorem set_snoc (pre : List Nat) (d k : Nat) : (pre ++ [d]).set pre.length k = pre ++ [k] := set_append_cons rfl

/-- Cutting the last axis with a start index that has no batch axes. -/
theorem dynSliceV_last {x : Nd β} {pre : List Nat} {T : Nat} (hs : x.shape = pre ++ [T]) {start : Nd Int}
    (h0 : start.shape = []) {k : Nat} (hk : k ≤ T) :
    x.dynSliceV start k (-1) = .ok
      { shape := pre ++ [k], get := fun idx => x.get (idx.modify pre.length fun i => i + startIdx T k (start.get [])) } := by
  unfold Nd.dynSliceV
  rw [h0]
  simp only [List.length_nil, List.take_zero, assertThat_ok, exc_ok_bind, Nat.sub_zero, Nat.zero_add]
  rw [hs, normAxis_last']
  simp only [exc_ok_bind, getD_snoc, set_snoc, assertThat_ok hk, exc_pure]

theorem dynSliceV_last_error {x : Nd β} {pre : List Nat} {T : Nat} (hs : x.shape = pre ++ [T]) {start : Nd Int}
    (h0 : start.shape = []) {k : Nat} (hk : ¬ k ≤ T) : x.dynSliceV start k (-1) = .error .typeError := by
  unfold Nd.dynSliceV
  rw [h0]
  simp only [List.length_nil, List.take_zero, assertThat_ok, exc_ok_bind, Nat.sub_zero, Nat.zero_add]
  rw [hs, normAxis_last']
  simp only [exc_ok_bind, getD_snoc, assertThat_error hk, exc_error_bind]

theorem forall2_le_snoc (pre : List Nat) {k T : Nat} : List.Forall₂ (· ≤ ·) (pre ++ [k]) (pre ++ [T]) ↔ k ≤ T := by
  induction pre with
  | nil => simp
  | cons a pre ih => simpa using ih

theorem forall2_lt_snoc {pre q : List Nat} (hq : InRange pre q) {t k : Nat} :
    List.Forall₂ (· < ·) (q ++ [t]) (pre ++ [k]) ↔ t < k := by
  induction hq with
  | nil => simp
  | cons h _ ih => simpa [h] using ih

/-- Writing along the last axis with start indices that have no batch axes. -/
theorem updSliceV_last {x y : Nd β} {pre : List Nat} {T U : Nat} (hx : x.shape = pre ++ [T]) (hy : y.shape = pre ++ [U])
    {start : Nd Int} (h0 : start.shape = []) {us : Option (Nd Int)} (hu : ∀ v ∈ us, v.shape = []) {k : Nat} (hk : k ≤ U)
    (hkT : k ≤ T) :
    ∃ r, x.updSliceV y start us (some k) (-1) = .ok r ∧ r.shape = pre ++ [T] ∧ ∀ q, InRange pre q → ∀ t < T,
      r.get (q ++ [t]) =
        if startIdx T k (start.get []) ≤ t ∧ t < startIdx T k (start.get []) + k then
          y.get (q ++ [t - startIdx T k (start.get []) + startIdx U k ((us.getD start).get [])])
        else x.get (q ++ [t]) := by
  have hus : (us.getD start).shape = [] := by
    cases us with
    | none => exact h0
    | some v => exact hu v rfl
  unfold Nd.updSliceV
  simp only [h0, hus, List.length_nil, List.take_zero, assertThat_ok, exc_ok_bind, Nat.sub_zero, Nat.zero_add, and_self,
    Nd.cutUpdate]
  rw [dynSliceV_last hy hus hk, hx, normAxis_last']
  simp only [exc_ok_bind]
  unfold Nd.writeSlice
  simp only [hx, forall2_le_snoc, assertThat_ok hkT, exc_ok_bind, exc_pure, getD_snoc, List.take_zero]
  refine ⟨_, rfl, rfl, fun q hq t ht => ?_⟩
  have hl : pre.length = q.length := hq.length
  have h1 : (q ++ [t]).getD pre.length 0 = t := by rw [hl]; exact getD_snoc q t
  have h2 : ∀ f : Nat → Nat, (q ++ [t]).modify pre.length f = q ++ [f t] := fun f => modify_append_cons hl.symm t
  simp only [h1, h2]
  have h3 : List.Forall₂ (· < ·) (q ++ [t - startIdx T k (start.get [])]) (pre ++ [k]) ↔ t - startIdx T k (start.get []) < k :=
    forall2_lt_snoc hq
  simp only [h3]
  by_cases hw : startIdx T k (start.get []) ≤ t ∧ t < startIdx T k (start.get []) + k
  · rw [if_pos hw, if_pos ⟨hw.1, by omega⟩, modify_append_cons hl.symm]
  · rw [if_neg hw, if_neg (by omega)]

theorem updSliceV_last_error {x y : Nd β} {pre : List Nat} {T U : Nat} (hx : x.shape = pre ++ [T]) (hy : y.shape = pre ++ [U])
    {start : Nd Int} (h0 : start.shape = []) {us : Option (Nd Int)} (hu : ∀ v ∈ us, v.shape = []) {k : Nat}
    (hk : ¬ (k ≤ U ∧ k ≤ T)) : x.updSliceV y start us (some k) (-1) = .error .typeError := by
  have hus : (us.getD start).shape = [] := by
    cases us with
    | none => exact h0
    | some v => exact hu v rfl
  unfold Nd.updSliceV
  simp only [h0, hus, List.length_nil, List.take_zero, assertThat_ok, exc_ok_bind, Nat.sub_zero, Nat.zero_add, and_self,
    Nd.cutUpdate]
  rw [hx, normAxis_last']
  by_cases hkU : k ≤ U
  · rw [dynSliceV_last hy hus hkU]
    simp only [exc_ok_bind]
    unfold Nd.writeSlice
    simp only [hx, forall2_le_snoc]
    rw [assertThat_error (by tauto)]
    rfl
  · rw [dynSliceV_last_error hy hus hkU]
    rfl

/-! ### Trees of leaves -/

/-- A tree map that renames indices. -/
theorem mapLeaves_rename {t : TrajNd α} {s s' : List Nat} (ht : t.HasShape s) {f : (β : Type) → Nd β → Except Err (Nd β)}
    {φ : List Nat → List Nat}
    (hf : ∀ (β : Type) (x : Nd β), x.shape = s → f β x = .ok { shape := s', get := fun idx => x.get (φ idx) }) :
    ∃ t', t.mapLeaves f = .ok t' ∧ t'.HasShape s' ∧ ∀ idx, t'.at_ idx = t.at_ (φ idx) := by
  unfold TrajNd.mapLeaves
  rw [hf _ _ ht.x, hf _ _ ht.y, hf _ _ ht.z, hf _ _ ht.velX, hf _ _ ht.velY, hf _ _ ht.yaw, hf _ _ ht.valid,
    hf _ _ ht.timestampMicros, hf _ _ ht.length, hf _ _ ht.width, hf _ _ ht.height]
  exact ⟨_, rfl, ⟨rfl, rfl, rfl, rfl, rfl, rfl, rfl, rfl, rfl, rfl, rfl⟩, fun _ => rfl⟩

/-- A tree map that takes some entries from a second tree. -/
theorem zipLeaves_select {t u : TrajNd α} {s s' : List Nat} (ht : t.HasShape s) (hu : u.HasShape s')
    {f : (β : Type) → Nd β → Nd β → Except Err (Nd β)} {c : List Nat → Prop} [DecidablePred c] {φ : List Nat → List Nat}
    {P : List Nat → Prop}
    (hf : ∀ (β : Type) (x y : Nd β), x.shape = s → y.shape = s' → ∃ r, f β x y = .ok r ∧ r.shape = s ∧
      ∀ idx, P idx → r.get idx = if c idx then y.get (φ idx) else x.get idx) :
    ∃ t', t.zipLeaves f u = .ok t' ∧ t'.HasShape s ∧
      ∀ idx, P idx → t'.at_ idx = if c idx then u.at_ (φ idx) else t.at_ idx := by
  obtain ⟨r1, e1, s1, g1⟩ := hf _ _ _ ht.x hu.x
  obtain ⟨r2, e2, s2, g2⟩ := hf _ _ _ ht.y hu.y
  obtain ⟨r3, e3, s3, g3⟩ := hf _ _ _ ht.z hu.z
  obtain ⟨r4, e4, s4, g4⟩ := hf _ _ _ ht.velX hu.velX
  obtain ⟨r5, e5, s5, g5⟩ := hf _ _ _ ht.velY hu.velY
  obtain ⟨r6, e6, s6, g6⟩ := hf _ _ _ ht.yaw hu.yaw
  obtain ⟨r7, e7, s7, g7⟩ := hf _ _ _ ht.valid hu.valid
  obtain ⟨r8, e8, s8, g8⟩ := hf _ _ _ ht.timestampMicros hu.timestampMicros
  obtain ⟨r9, e9, s9, g9⟩ := hf _ _ _ ht.length hu.length
  obtain ⟨r10, e10, s10, g10⟩ := hf _ _ _ ht.width hu.width
  obtain ⟨r11, e11, s11, g11⟩ := hf _ _ _ ht.height hu.height
  unfold TrajNd.zipLeaves
  rw [e1, e2, e3, e4, e5, e6, e7, e8, e9, e10, e11]
  refine ⟨_, rfl, ⟨s1, s2, s3, s4, s5, s6, s7, s8, s9, s10, s11⟩, fun idx hP => ?_⟩
  simp only [TrajNd.at_, g1 idx hP, g2 idx hP, g3 idx hP, g4 idx hP, g5 idx hP, g6 idx hP, g7 idx hP, g8 idx hP, g9 idx hP,
    g10 idx hP, g11 idx hP]
  split <;> rfl

theorem startIdx_lt {T k : Nat} (h : k ≤ T) (i : Int) {j : Nat} (hj : j < k) : startIdx T k i + j < T := by
  have := startIdx_le h i
  omega

/-- One step of a trajectory, cut at a time index shared by the batch. -/
theorem slice_traj {t : TrajNd α} {pre : List Nat} {n T : Nat} (ht : t.HasShape (pre ++ [n, T])) {start : Nd Int}
    (h0 : start.shape = []) [NeZero T] :
    ∃ t', t.slice start 1 = .ok t' ∧ t'.HasShape (pre ++ [n, 1]) ∧ ∀ p, InRange pre p → ∀ i : Fin n,
      t'.at_ (p ++ [i.val, 0]) = dynIndex (fun k : Fin T => t.at_ (p ++ [i.val, k.val])) (start.get []) := by
  have hT : 1 ≤ T := Nat.one_le_iff_ne_zero.mpr (NeZero.ne T)
  have hsplit : ∀ a b : Nat, pre ++ [a, b] = (pre ++ [a]) ++ [b] := by simp
  obtain ⟨t', h1, h2, h3⟩ := mapLeaves_rename (f := fun _ x => x.dynSliceV start 1 (-1)) (s' := pre ++ [n, 1])
    (φ := fun idx => idx.modify (pre ++ [n]).length fun i => i + startIdx T 1 (start.get [])) ht
    (fun β x hx => by
      rw [hsplit] at hx
      rw [dynSliceV_last hx h0 hT, hsplit])
  refine ⟨t', h1, h2, fun p hp i => ?_⟩
  rw [h3]
  have : (p ++ [i.val, 0]).modify (pre ++ [n]).length (fun j => j + startIdx T 1 (start.get [])) =
      p ++ [i.val, startIdx T 1 (start.get [])] := by
    have hh := modify_append_cons (p := p ++ [i.val]) (q := []) (k := (pre ++ [n]).length)
      (f := fun j => j + startIdx T 1 (start.get [])) (by simp [hp.length]) 0
    simpa using hh
  rw [this]
  unfold dynIndex dynSlice
  rfl

end

end Waymax
