import Verif.Spec.Masked
import Verif.Spec.BatchMetrics
import Verif.Model.BatchReward
import Verif.Lemmas.Batch

/-! C178: Masked arrays hide exactly the entries that are not valid. -/

namespace Waymax
section
variable {β : Type}

/-- What is accepted is kept as it is: the flags are of boolean type and the values have the axes of the flags, and possibly more. -/
theorem C178_created {value : Nd β} {valid : Nd Bool} {type : DType} {m : MaskedNd β}
    (h : MaskedNd.createAndValidate value valid type = .ok m) :
    m.value = value ∧ m.valid = valid ∧ m.shape = valid.shape ∧ type = .bool ∧ ∃ extra, value.shape = valid.shape ++ extra := by
  unfold MaskedNd.createAndValidate MaskedNd.validate at h
  by_cases h1 : value.shape.take valid.shape.length = valid.shape.take valid.shape.length
  · by_cases h2 : type = .bool
    · simp only [assertThat, h1, h2, if_true] at h
      obtain rfl := Except.ok.inj h
      refine ⟨rfl, rfl, rfl, h2, value.shape.drop valid.shape.length, ?_⟩
      rw [List.take_length] at h1
      conv_lhs => rw [← List.take_append_drop valid.shape.length value.shape, h1]
    · simp only [assertThat, h1, if_true, if_neg h2] at h
      cases h
  · simp only [assertThat, if_neg h1] at h
    cases h

/-- All of these are accepted, and nothing else. -/
theorem C178_accepts (value : Nd β) (valid : Nd Bool) (type : DType) :
    (∃ m, MaskedNd.createAndValidate value valid type = .ok m) ↔ (∃ extra, value.shape = valid.shape ++ extra) ∧ type = .bool := by
  constructor
  · rintro ⟨m, h⟩
    obtain ⟨-, -, -, a, b⟩ := C178_created h
    exact ⟨b, a⟩
  · rintro ⟨⟨extra, h⟩, rfl⟩
    refine ⟨⟨value, valid, .bool⟩, ?_⟩
    unfold MaskedNd.createAndValidate MaskedNd.validate
    simp only [assertThat, h, List.take_left, List.take_length, if_true]
    rfl

theorem broadcastRev_all_ones : ∀ (r : Nat) (s : List Nat), r ≤ s.length → Nd.broadcastRev (List.replicate r 1) s = some s := by
  intro r
  induction r with
  | zero => intro s _; simp [Nd.broadcastRev]
  | succ r ih =>
    intro s hs
    cases s with
    | nil => simp at hs
    | cons a s =>
      rw [List.replicate_succ]
      simp only [Nd.broadcastRev]
      rw [ih s (by simpa using hs)]
      by_cases h : 1 = a
      · simp [h]
      · simp [h]

/-- How `masked_value` reads the flags: the flags are lined up with the last axes. -/
theorem maskedValue_eq (m : MaskedNd β) (fill : β) {s : List Nat} (hs : Nd.broadcastShape m.valid.shape m.value.shape = some s) :
    ∃ r, m.maskedValue fill = .ok r ∧ r.shape = s ∧ (s = m.value.shape → ∀ idx, InRange s idx →
      r.get idx = if m.valid.get (Nd.broadcastIdx m.valid.shape idx) then m.value.get idx else fill) := by
  unfold MaskedNd.maskedValue Nd.where3 Nd.zip
  simp only [broadcastShape_self]
  rw [exc_ok_bind]
  simp only [hs]
  refine ⟨_, rfl, rfl, fun e idx hi => ?_⟩
  subst e
  simp only [broadcastIdx_self hi]

theorem maskedValue_error (m : MaskedNd β) (fill : β) (hs : Nd.broadcastShape m.valid.shape m.value.shape = none) :
    m.maskedValue fill = .error .typeError := by
  unfold MaskedNd.maskedValue Nd.where3 Nd.zip
  simp only [broadcastShape_self]
  rw [exc_ok_bind]
  simp only [hs]

theorem inRange_ones {r : Nat} : ∀ {idx : List Nat}, InRange (List.replicate r 1) idx → idx = List.replicate r 0 := by
  induction r with
  | zero => intro idx h; cases h; rfl
  | succ r ih =>
    intro idx h
    rw [List.replicate_succ] at h ⊢
    cases h with
    | cons a b => rw [ih b]; congr 1; omega

theorem zipWith_ones : ∀ (r : Nat) (l : List Nat), l.length = r →
    List.zipWith (fun d i : Nat => if d = 1 then 0 else i) (List.replicate r 1) l = List.replicate r 0 := by
  intro r
  induction r with
  | zero => intro l h; simp
  | succ r ih =>
    intro l h
    cases l with
    | nil => simp at h
    | cons a l => rw [List.replicate_succ, List.zipWith_cons_cons, ih l (by simpa using h), List.replicate_succ]; simp

/-- What holds: arrays whose values have no axes beyond those of the flags, and arrays with a single flag. Missing: all other accepted
arrays, see `C178_exact`. -/
theorem C178_same_axes_partial {value : Nd β} {valid : Nd Bool} {type : DType} {m : MaskedNd β} (fill : β)
    (h : MaskedNd.createAndValidate value valid type = .ok m) (hs : value.shape = valid.shape ∨ ∀ d ∈ valid.shape, d = 1) :
    ∃ r, m.maskedValue fill = .ok r ∧ MasksEntries value valid fill r := by
  obtain ⟨rfl, rfl, -, -, extra, he⟩ := C178_created h
  rcases hs with hs | hs
  · obtain ⟨r, h1, h2, h3⟩ := maskedValue_eq m fill (s := m.value.shape) (by rw [hs, broadcastShape_self])
    refine ⟨r, h1, h2, fun idx hi => ?_⟩
    rw [h3 rfl idx hi, ← hs, broadcastIdx_self hi, hi.length, List.take_length]
  · obtain ⟨k, hk⟩ : ∃ k, m.valid.shape = List.replicate k 1 := ⟨_, List.eq_replicate_iff.2 ⟨rfl, hs⟩⟩
    rw [hk] at he
    have hb : Nd.broadcastShape m.valid.shape m.value.shape = some m.value.shape := by
      unfold Nd.broadcastShape
      rw [hk, List.reverse_replicate, broadcastRev_all_ones _ _ (by rw [he]; simp)]
      simp
    obtain ⟨r, h1, h2, h3⟩ := maskedValue_eq m fill hb
    refine ⟨r, h1, h2, fun idx hi => ?_⟩
    rw [h3 rfl idx hi, hk, List.length_replicate]
    have hl := hi.length
    rw [he, List.length_append, List.length_replicate] at hl
    rw [he] at hi
    have h4 : idx.take k = List.replicate k 0 := by
      refine inRange_ones ?_
      have := List.forall₂_take_append idx (List.replicate k 1) extra (List.Forall₂.flip hi)
      simpa [InRange, List.Forall₂.flip] using List.Forall₂.flip this
    have h5 : Nd.broadcastIdx (List.replicate k 1) idx = List.replicate k 0 := by
      unfold Nd.broadcastIdx
      exact zipWith_ones k _ (by simp; omega)
    rw [h4, h5]

/-- Which shapes work. Values and flags of the same shape do, and so do flags with a single entry; with any other shapes that are accepted
there are contents for which `masked_value` fails or hides other entries. -/
theorem C178_exact [Nontrivial β] (s extra : List Nat) (hpos : ∀ d ∈ s ++ extra, 0 < d) :
    (∀ (value : Nd β) (valid : Nd Bool) (m : MaskedNd β) (fill : β), value.shape = s ++ extra → valid.shape = s →
      MaskedNd.createAndValidate value valid .bool = .ok m → ∃ r, m.maskedValue fill = .ok r ∧ MasksEntries value valid fill r) ↔
    (extra = [] ∨ ∀ d ∈ s, d = 1) := by
  constructor
  · intro H
    by_contra hno
    obtain ⟨he, hs⟩ := not_or.1 hno
    have : ∃ j, ∃ hj : j < s.length, s[j] ≠ 1 := by
      by_contra hc
      refine hs fun d hd => ?_
      obtain ⟨j, hj, rfl⟩ := List.mem_iff_getElem.1 hd
      by_contra h1
      exact hc ⟨j, hj, h1⟩
    obtain ⟨j, hj, h1⟩ := this
    obtain ⟨u, v, huv⟩ := exists_pair_ne β
    let value : Nd β := { shape := s ++ extra, get := fun _ => u }
    let valid : Nd Bool := { shape := s, get := fun p => decide (p.getD j 0 = 1) }
    obtain ⟨m, hm⟩ := (C178_accepts value valid .bool).2 ⟨⟨extra, rfl⟩, rfl⟩
    obtain ⟨r, hr, hsh, hg⟩ := H value valid m v rfl rfl hm
    obtain ⟨e1, e2, -⟩ := C178_created hm
    have hk : 0 < extra.length := List.length_pos_iff.2 he
    let idx := (List.replicate (s.length + extra.length) 0).set j 1
    have hidx : InRange (s ++ extra) idx := by
      refine List.forall₂_iff_get.2 ⟨by simp [idx], fun i hi hi' => ?_⟩
      simp only [List.get_eq_getElem, idx, List.getElem_set, List.getElem_replicate]
      have hp := hpos (s ++ extra)[i] (List.getElem_mem _)
      split
      · rename_i hji
        subst hji
        rw [List.getElem_append_left hj] at hp ⊢
        omega
      · exact hp
    have hb : Nd.broadcastShape m.valid.shape m.value.shape = some (s ++ extra) := by
      cases hc : Nd.broadcastShape m.valid.shape m.value.shape with
      | none => rw [maskedValue_error m v hc] at hr; cases hr
      | some q =>
        obtain ⟨r', hr', hq, -⟩ := maskedValue_eq m v hc
        rw [hr] at hr'
        obtain rfl := Except.ok.inj hr'
        rw [← hq, hsh]
    obtain ⟨r', hr', -, hg'⟩ := maskedValue_eq m v hb
    rw [hr] at hr'
    obtain rfl := Except.ok.inj hr'
    have a := hg idx hidx
    have b := hg' (by rw [e1]) idx hidx
    rw [e1, e2] at b
    have hread : (Nd.broadcastIdx s idx).getD j 0 = 0 := by
      unfold Nd.broadcastIdx
      have hl : j < (List.zipWith (fun d i : Nat => if d = 1 then 0 else i) s (idx.drop (idx.length - s.length))).length := by
        simp [idx]; omega
      rw [List.getD_eq_getElem?_getD, List.getElem?_eq_getElem hl, Option.getD_some, List.getElem_zipWith, if_neg h1, List.getElem_drop]
      simp only [idx, List.length_set, List.length_replicate, List.getElem_set, List.getElem_replicate]
      rw [if_neg (by omega)]
    have hwant : (idx.take s.length).getD j 0 = 1 := by
      have hl : j < (idx.take s.length).length := by simp [idx]; omega
      rw [List.getD_eq_getElem?_getD, List.getElem?_eq_getElem hl, Option.getD_some, List.getElem_take]
      simp [idx]
    simp only [value, valid, hwant, hread] at a b
    rw [a] at b
    simp at b
    exact huv b
  · intro hs value valid m fill h1 h2 hm
    refine C178_same_axes_partial fill hm ?_
    rw [h1, h2]
    rcases hs with rfl | hs
    · left; simp
    · right; exact hs

/-- One flag for each of two pairs: the arrays are accepted, and `masked_value` hides a column instead of a row. -/
theorem C178_violated : ¬ MaskedArraysWork := by
  intro H
  have h := (C178_exact (β := Bool) [2] [2] (by simp)).1 fun value valid m fill _ _ hm => H _ _ _ _ _ _ hm
  simp at h

/-- The results of metrics have the shape of their flags, so the masked value used in rewards is what it should be. -/
theorem C178_metrics {value : Nd ℝ} {valid : Nd Bool} {m : MetricNd} (h : MetricNd.create value valid = .ok m) :
    ∃ r, m.maskedValue = .ok r ∧ MasksEntries value valid 0 r := by
  unfold MetricNd.create at h
  by_cases hs : value.shape = valid.shape
  · simp only [assertThat, hs, if_true] at h
    obtain rfl := Except.ok.inj h
    obtain ⟨r, h1, h2, h3⟩ := zip_same (fun v (ok : Bool) => if ok then v else (0 : ℝ)) (x := value) (y := valid) hs
    refine ⟨r, h1, h2, fun idx hi => ?_⟩
    rw [h3 idx hi, ← hs, hi.length, List.take_length]
  · simp only [assertThat, if_neg hs] at h
    cases h

/-- The ways in which it goes wrong, for one flag per row of a matrix with more than one row: the flags are taken as flags of the columns if
there are as many, and otherwise the call fails or, with one column, gives a square matrix. -/
theorem C178_rows {value : Nd β} {valid : Nd Bool} {m : MaskedNd β} (fill : β) {n k : Nat} (hn : n ≠ 1) (h1 : value.shape = [n, k])
    (h2 : valid.shape = [n]) (hm : MaskedNd.createAndValidate value valid .bool = .ok m) :
    (k = n → ∃ r, m.maskedValue fill = .ok r ∧ ∀ i < n, ∀ j < n, r.get [i, j] = if valid.get [j] then value.get [i, j] else fill) ∧
    (k = 1 → ∃ r, m.maskedValue fill = .ok r ∧ r.shape = [n, n]) ∧
    (k ≠ n → k ≠ 1 → m.maskedValue fill = .error .typeError) := by
  obtain ⟨rfl, rfl, -⟩ := C178_created hm
  refine ⟨?_, ?_, ?_⟩
  · rintro rfl
    have hb : Nd.broadcastShape m.valid.shape m.value.shape = some [k, k] := by
      rw [h1, h2]; simp [Nd.broadcastShape, Nd.broadcastRev]
    obtain ⟨r, a, b, c⟩ := maskedValue_eq m fill hb
    refine ⟨r, a, fun i hi j hj => ?_⟩
    rw [c h1.symm [i, j] (.cons hi (.cons hj .nil)), h2]
    simp [Nd.broadcastIdx, hn]
  · rintro rfl
    have hb : Nd.broadcastShape m.valid.shape m.value.shape = some [n, n] := by
      rw [h1, h2]; simp [Nd.broadcastShape, Nd.broadcastRev, hn]
    obtain ⟨r, a, b, -⟩ := maskedValue_eq m fill hb
    exact ⟨r, a, b⟩
  · intro hk hk1
    refine maskedValue_error m fill ?_
    rw [h1, h2]
    simp [Nd.broadcastShape, Nd.broadcastRev, hn, hk1, Ne.symm hk]

end

/-- Positions of two objects, the second one not valid. -/
def twoPositions : Nd Int := { shape := [2, 2], get := fun idx => 10 * idx.getD 0 0 + idx.getD 1 0 + 1 }

/-- Only the first object is valid. -/
def firstOnly : Nd Bool := { shape := [2], get := fun idx => idx.getD 0 0 == 0 }

/-- The second coordinate of the first object is hidden, the first coordinate of the second object is not. -/
example : ∃ m r, MaskedNd.createAndValidate twoPositions firstOnly .bool = .ok m ∧ m.maskedValue 0 = .ok r ∧
    r.get [0, 1] = 0 ∧ r.get [1, 0] = 11 := by
  obtain ⟨m, hm⟩ := (C178_accepts twoPositions firstOnly .bool).2 ⟨⟨[2], rfl⟩, rfl⟩
  obtain ⟨r, hr, h⟩ := (C178_rows (0 : Int) (n := 2) (by omega) rfl rfl hm).1 rfl
  refine ⟨m, r, hm, hr, ?_, ?_⟩
  · rw [h 0 (by omega) 1 (by omega)]; rfl
  · rw [h 1 (by omega) 0 (by omega)]; rfl

/-- The partial theorem applies to one number per object. -/
example : ∃ m r, MaskedNd.createAndValidate { shape := [2], get := fun idx => idx.getD 0 0 + 5 } firstOnly .bool = .ok m ∧
    m.maskedValue 0 = .ok r ∧ r.shape = [2] ∧ r.get [0] = 5 ∧ r.get [1] = 0 := by
  obtain ⟨m, hm⟩ := (C178_accepts { shape := [2], get := fun idx => idx.getD 0 0 + 5 } firstOnly .bool).2 ⟨⟨[], rfl⟩, rfl⟩
  obtain ⟨r, hr, a, b⟩ := C178_same_axes_partial 0 hm (Or.inl rfl)
  exact ⟨m, r, hm, hr, a, b [0] (.cons (by omega) .nil), b [1] (.cons (by omega) .nil)⟩

end Waymax
