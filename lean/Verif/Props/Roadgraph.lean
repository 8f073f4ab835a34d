import Verif.Spec.Observation
import Verif.Lemmas.Select
/-
C53 and C54: filtering the road graph to the nearest points (real arithmetic for the distances).
-/

namespace Waymax

section
variable {N : Nat}

theorem topKIdx_lex (key : Fin N → WithTop ℝ) (k : Nat) :
    ∃ rest, (topKIdx key k ++ rest).Perm (List.finRange N) ∧
      (topKIdx key k ++ rest).Pairwise (fun a b => key a < key b ∨ (key a = key b ∧ a < b)) := by
  classical
  have htrans : ∀ a b c : Fin N, (decide (key a ≤ key b)) = true → (decide (key b ≤ key c)) = true →
      (decide (key a ≤ key c)) = true := by
    intro a b c h1 h2
    simp only [decide_eq_true_eq] at *
    exact h1.trans h2
  have htotal : ∀ a b : Fin N, (decide (key a ≤ key b) || decide (key b ≤ key a)) = true := by
    intro a b
    simp only [Bool.or_eq_true, decide_eq_true_eq]
    exact le_total _ _
  set L := (List.finRange N).mergeSort fun a b => decide (key a ≤ key b) with hL
  have hperm : L.Perm (List.finRange N) := List.mergeSort_perm _ _
  have hnd : L.Nodup := hperm.nodup_iff.2 (List.nodup_finRange N)
  have hsort : L.Pairwise fun a b => decide (key a ≤ key b) = true := List.pairwise_mergeSort htrans htotal _
  refine ⟨L.drop k, ?_, ?_⟩
  · have : topKIdx key k ++ L.drop k = L := by
      unfold topKIdx
      exact List.take_append_drop k L
    rw [this]; exact hperm
  · have : topKIdx key k ++ L.drop k = L := by
      unfold topKIdx
      exact List.take_append_drop k L
    rw [this, List.pairwise_iff_forall_sublist]
    intro a b hab
    have hle := List.pairwise_iff_forall_sublist.1 hsort hab
    rw [decide_eq_true_eq] at hle
    rcases hle.lt_or_eq with hlt | heq
    · exact .inl hlt
    · refine .inr ⟨heq, ?_⟩
      by_contra hba
      have hne : a ≠ b := by
        have := hnd.sublist hab
        simpa using this
      have hlt : b < a := lt_of_le_of_ne (not_lt.1 hba) (Ne.symm hne)
      have hsub : [b, a].Sublist (List.finRange N) := by
        have hpw : (List.finRange N).Pairwise (· < ·) := List.pairwise_lt_finRange N
        have hmb : b ∈ List.finRange N := List.mem_finRange b
        obtain ⟨l1, l2, hl⟩ := List.append_of_mem hmb
        have hma : a ∈ List.finRange N := List.mem_finRange a
        rw [hl] at hma hpw ⊢
        rw [List.mem_append, List.mem_cons] at hma
        rcases hma with h | h | h
        · rw [List.pairwise_append] at hpw
          exact absurd (hpw.2.2 a h b List.mem_cons_self) (not_lt.2 hlt.le)
        · exact absurd h hne
        · exact ((List.singleton_sublist.2 h).cons_cons b).trans (List.sublist_append_right l1 _)
      have hba' := List.pair_sublist_mergeSort htrans htotal (a := b) (b := a) (by rw [decide_eq_true_eq]; exact heq.ge) hsub
      rw [← hL] at hba'
      -- both orders cannot occur in a list without repetitions
      have hasym : ∀ (l : List (Fin N)), l.Nodup → [a, b].Sublist l → ¬ [b, a].Sublist l := by
        intro l hl h1 h2
        induction l with
        | nil => simp at h1
        | cons x xs ih =>
          rw [List.nodup_cons] at hl
          cases h1 with
          | cons _ h1 =>
            cases h2 with
            | cons _ h2 => exact ih hl.2 h1 h2
            | cons_cons _ h2 => exact hl.1 (h1.subset (by simp))
          | cons_cons _ h1 =>
            cases h2 with
            | cons _ h2 => exact hl.1 (h2.subset (by simp))
            | cons_cons _ h2 => exact hl.1 (h2.subset (by simp))
      exact hasym L hnd hab hba'

end

/-! ### C53 -/

/-- The `topk` points kept are the nearest valid ones (then, if there are too few, invalid ones), listed from near to far; all
coordinates, directions and the validity of a point stay together. No point is kept twice. -/
theorem C53_nearest {rg out : List (RgPoint ℝ)} {ref : ℝ × ℝ} {topk : Nat} (hlt : topk < rg.length)
    (h : filterTopk rg ref topk = .ok out) :
    ∃ idx : List (Fin rg.length), idx.length = topk ∧ idx.Pairwise (RanksBefore rg ref) ∧
      (∀ i ∈ idx, ∀ j, j ∉ idx → RanksBefore rg ref i j) ∧
      List.Forall₂ (fun i p => SameGeometry p rg[i]) idx out := by
  unfold filterTopk at h
  rw [if_neg (by omega), if_pos hlt] at h
  have hout := Except.ok.inj h
  simp only at hout
  set key := fun i : Fin rg.length => orInf rg[i].valid (hypot (ref.1 - rg[i].x) (ref.2 - rg[i].y)) with hkey
  obtain ⟨rest, hperm, hpw⟩ := topKIdx_lex key topk
  have hlex : ∀ i j : Fin rg.length, (key i < key j ∨ (key i = key j ∧ i < j)) → RanksBefore rg ref i j := by
    intro i j hij
    have hd : ∀ k : Fin rg.length, hypot (ref.1 - rg[k].x) (ref.2 - rg[k].y) = dist2 ref (rg[k].x, rg[k].y) := fun k => rfl
    simp only [hkey, orInf, hd] at hij
    unfold RanksBefore
    simp only
    cases hi : rg[i].valid <;> cases hj : rg[j].valid <;> simp only [hi, hj, Bool.false_eq_true, if_true, if_false] at hij
    · right; right
      rcases hij with hij | hij
      · exact absurd hij (lt_irrefl _)
      · exact ⟨rfl, rfl, hij.2⟩
    · rcases hij with hij | hij
      · exact absurd hij (not_lt.2 le_top)
      · exact absurd hij.1 (by simp)
    · exact .inl ⟨rfl, rfl⟩
    · right; left
      simp only [WithTop.coe_lt_coe, WithTop.coe_inj] at hij
      exact ⟨rfl, rfl, hij⟩
  rw [List.pairwise_append] at hpw
  refine ⟨topKIdx key topk, ?_, hpw.1.imp fun {a b} => hlex a b, ?_, ?_⟩
  · unfold topKIdx
    rw [List.length_take, List.length_mergeSort, List.length_finRange]
    omega
  · intro i hi j hj
    have hjm : j ∈ topKIdx key topk ++ rest := hperm.mem_iff.2 (List.mem_finRange j)
    rw [List.mem_append] at hjm
    exact hlex i j (hpw.2.2 i hi j (hjm.resolve_left hj))
  · rw [← hout, List.forall₂_map_right_iff]
    exact List.forall₂_same.2 fun i _ => ⟨rfl, rfl, rfl, rfl, rfl, rfl, rfl⟩

/-- No discarded valid point is strictly closer than a kept one, and if a point that is not valid is kept then all valid points
are. -/
theorem C53_no_closer {rg out : List (RgPoint ℝ)} {ref : ℝ × ℝ} {topk : Nat} (hlt : topk < rg.length)
    (h : filterTopk rg ref topk = .ok out) :
    ∃ idx : List (Fin rg.length), idx.length = topk ∧ idx.Nodup ∧ List.Forall₂ (fun i p => SameGeometry p rg[i]) idx out ∧
      ∀ i ∈ idx, ∀ j, j ∉ idx → rg[j].valid = true →
        rg[i].valid = true ∧ dist2 ref (rg[i].x, rg[i].y) ≤ dist2 ref (rg[j].x, rg[j].y) := by
  obtain ⟨idx, h1, h2, h3, h4⟩ := C53_nearest hlt h
  refine ⟨idx, h1, ?_, h4, ?_⟩
  · refine h2.imp ?_
    rintro a b hab rfl
    rcases hab with hab | hab | hab
    · rw [hab.1] at hab; simp at hab
    · rcases hab.2.2 with h | h
      · exact lt_irrefl _ h
      · exact lt_irrefl _ h.2
    · exact lt_irrefl _ hab.2.2
  · intro i hi j hj hv
    rcases h3 i hi j hj with hab | hab | hab
    · rw [hv] at hab; simp at hab
    · exact ⟨hab.1, hab.2.2.elim le_of_lt fun h => h.1.le⟩
    · rw [hv] at hab; simp at hab

/-- With `topk` equal to the number of points the road graph is returned as it is; with more, the call fails; with at most as many
it succeeds. -/
theorem C53_sizes (rg : List (RgPoint ℝ)) (ref : ℝ × ℝ) (topk : Nat) :
    (topk = rg.length → filterTopk rg ref topk = .ok rg) ∧
    (rg.length < topk → filterTopk rg ref topk = .error .notImplemented) ∧
    (topk ≤ rg.length → ∃ out, filterTopk rg ref topk = .ok out ∧ out.length = topk) := by
  refine ⟨fun h => ?_, fun h => ?_, fun h => ?_⟩
  · unfold filterTopk
    rw [if_neg (by omega), if_neg (by omega)]
  · unfold filterTopk
    rw [if_pos h]
  · rcases h.lt_or_eq with hlt | heq
    · cases hf : filterTopk rg ref topk with
      | error e =>
        unfold filterTopk at hf
        rw [if_neg (by omega), if_pos hlt] at hf
        cases hf
      | ok out =>
        obtain ⟨idx, h1, -, -, h4⟩ := C53_nearest hlt hf
        exact ⟨out, rfl, h4.length_eq ▸ h1⟩
    · refine ⟨rg, ?_, heq.symm⟩
      unfold filterTopk
      rw [if_neg (by omega), if_neg (by omega)]

/-- Three points at distances 5, 1 and 3, the nearest of them not valid. -/
def rgThree : List (RgPoint ℝ) :=
  [⟨5, 0, 0, 1, 0, 0, 15, 7, true⟩, ⟨1, 0, 0, 1, 0, 0, 15, 8, false⟩, ⟨3, 0, 0, 1, 0, 0, 15, 16777217, true⟩]

/-! ### C54 -/

theorem f32OfInt_small {a : Int} (h : a.natAbs ≤ 2 ^ 24) : f32OfInt a = a := by
  unfold f32OfInt
  rcases Nat.lt_or_ge a.natAbs (2 ^ 24) with hlt | hge
  · have he : Nat.log2 a.natAbs - 23 = 0 := by
      have : Nat.log2 a.natAbs < 24 := by
        rcases Nat.eq_zero_or_pos a.natAbs with h0 | h0
        · rw [h0]; decide
        · exact (Nat.log2_lt (by omega)).2 hlt
      omega
    rw [he]
    simp only [pow_zero, mul_one, divRoundEven, Nat.cast_one, Int.ediv_one, Int.emod_one, mul_zero]
    simp
  · have : a = 2 ^ 24 ∨ a = -2 ^ 24 := by omega
    rcases this with rfl | rfl <;> decide

/-- What the property asks for: every kept point is one of the original ones, with its id and type. -/
def IdsSurvive (rg : List (RgPoint ℝ)) (ref : ℝ × ℝ) (topk : Nat) : Prop :=
  ∀ out, filterTopk rg ref topk = .ok out → ∀ p ∈ out, ∃ q ∈ rg, SameGeometry p q ∧ p.id = q.id ∧ p.type = q.type

/-- Id 16777217 = 2^24 + 1 does not survive: no kept point has it. -/
theorem C54_violated : ¬ ∀ rg ref topk, IdsSurvive rg ref topk := by
  intro hall
  obtain ⟨out, hout, hlen⟩ := (C53_sizes rgThree (0, 0) 2).2.2 (by decide)
  have hs := hall rgThree (0, 0) 2 out hout
  have hno : ∀ p ∈ out, p.id ≠ 16777217 := by
    unfold filterTopk at hout
    rw [if_neg (by decide), if_pos (by decide)] at hout
    have := Except.ok.inj hout
    intro p hp
    rw [← this] at hp
    obtain ⟨i, -, rfl⟩ := List.mem_map.1 hp
    have : ∀ i : Fin rgThree.length, f32OfInt rgThree[i].id ≠ 16777217 := by
      intro i
      match i with
      | ⟨0, _⟩ => show f32OfInt 7 ≠ _; decide
      | ⟨1, _⟩ => show f32OfInt 8 ≠ _; decide
      | ⟨2, _⟩ => show f32OfInt 16777217 ≠ _; decide
    exact this i
  obtain ⟨idx, hl, hnd, hf, hnear⟩ := C53_no_closer (rg := rgThree) (by decide) hout
  -- both valid points are kept, in particular the third one
  have h2 : (⟨2, by decide⟩ : Fin rgThree.length) ∈ idx := by
    by_contra hn
    match idx, hl, hnd, hnear, hn with
    | [a, b], _, hnd, hnear, hn =>
      obtain ⟨va, -⟩ := hnear a (by simp) _ hn rfl
      obtain ⟨vb, -⟩ := hnear b (by simp) _ hn rfl
      have e : ∀ c : Fin rgThree.length, rgThree[c].valid = true → c ≠ ⟨2, by decide⟩ → c = ⟨0, by decide⟩ := by
        intro c hc hne
        match c, hc, hne with
        | ⟨0, _⟩, _, _ => rfl
        | ⟨1, _⟩, hc, _ => exact absurd hc (by simp [rgThree])
        | ⟨2, _⟩, _, hne => exact absurd rfl hne
      have ea := e a va (by rintro rfl; simp at hn)
      have eb := e b vb (by rintro rfl; simp at hn)
      rw [ea, eb] at hnd
      simp at hnd
  obtain ⟨m, hm, hmi⟩ := List.getElem_of_mem h2
  have hm' : m < out.length := by rw [← hf.length_eq]; exact hm
  have hg := (List.forall₂_iff_get.1 hf).2 m hm hm'
  simp only [List.get_eq_getElem, hmi] at hg
  have hx : out[m].x = 3 := hg.1
  obtain ⟨q, hq, hqg, hqi, -⟩ := hs out[m] (List.getElem_mem hm')
  have hq3 : q.x = 3 := hqg.1.symm.trans hx
  have hqid : q.id = 16777217 := by
    simp only [rgThree, List.mem_cons, List.not_mem_nil, or_false] at hq
    rcases hq with rfl | rfl | rfl
    · norm_num at hq3
    · norm_num at hq3
    · rfl
  exact hno _ (List.getElem_mem hm') (hqi.trans hqid)

/-- Ids and types up to 2^24 in absolute value survive, so the kept points are the original points in full. Missing: larger ones,
which are rounded to 24 significant bits. -/
theorem C54_small_ids_partial {rg out : List (RgPoint ℝ)} {ref : ℝ × ℝ} {topk : Nat} (h : filterTopk rg ref topk = .ok out)
    (hsmall : ∀ p ∈ rg, p.id.natAbs ≤ 2 ^ 24 ∧ p.type.natAbs ≤ 2 ^ 24) : ∀ p ∈ out, p ∈ rg := by
  unfold filterTopk at h
  split_ifs at h
  · have := Except.ok.inj h
    rw [← this]
    intro p hp
    obtain ⟨i, -, rfl⟩ := List.mem_map.1 hp
    have hm := List.getElem_mem i.isLt
    have := hsmall rg[i] hm
    rw [f32OfInt_small this.1, f32OfInt_small this.2]
    exact hm
  · have := Except.ok.inj h
    rw [← this]
    exact fun p hp => hp

/-- When nothing is filtered out (`topk` equal to the number of points), every id survives. -/
theorem C54_unfiltered (rg : List (RgPoint ℝ)) (ref : ℝ × ℝ) : IdsSurvive rg ref rg.length := by
  intro out h p hp
  have := Except.ok.inj (((C53_sizes rg ref rg.length).1 rfl).symm.trans h)
  subst this
  exact ⟨p, hp, ⟨rfl, rfl, rfl, rfl, rfl, rfl, rfl⟩, rfl, rfl⟩

example : ∃ out, filterTopk rgThree (0, 0) 2 = .ok out ∧ out.length = 2 := (C53_sizes rgThree (0, 0) 2).2.2 (by decide)

example : f32OfInt 16777217 = 16777216 ∧ f32OfInt 16777219 = 16777220 ∧ f32OfInt (-16777217) = -16777216 ∧ f32OfInt 42 = 42 := by
  decide

end Waymax
