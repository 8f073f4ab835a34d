import Verif.Spec.Dataset
import Mathlib.Tactic.Linarith
import Mathlib.Tactic.Ring
import Mathlib.Tactic.IntervalCases
/-
C55: names of sharded files.
-/

namespace Waymax

/-! ### Decimal notation -/

/-- `i` in exactly `w` digits (the last `w` digits if there are more). -/
def fixedWidth : Nat → Nat → List Char
  | 0, _ => []
  | w + 1, i => fixedWidth w (i / 10) ++ [Nat.digitChar (i % 10)]

theorem digitChar_facts (d : Nat) (h : d < 10) :
    (Nat.digitChar d).isDigit = true ∧ digitVal (Nat.digitChar d) = d ∧ Nat.digitChar d ≠ '@' ∧ Nat.digitChar d ≠ 'd' := by
  interval_cases d <;> decide

theorem digitChar_lt {a b : Nat} (h : a < b) (hb : b < 10) : Nat.digitChar a < Nat.digitChar b := by
  interval_cases b <;> interval_cases a <;> decide

theorem fixedWidth_length (w i : Nat) : (fixedWidth w i).length = w := by
  induction w generalizing i with
  | zero => rfl
  | succ w ih => simp [fixedWidth, ih]

theorem fixedWidth_digits (w i : Nat) : ∀ c ∈ fixedWidth w i, c.isDigit = true := by
  induction w generalizing i with
  | zero => simp [fixedWidth]
  | succ w ih =>
    intro c hc
    rw [fixedWidth, List.mem_append, List.mem_singleton] at hc
    rcases hc with hc | rfl
    · exact ih _ c hc
    · exact (digitChar_facts _ (Nat.mod_lt _ (by omega))).1

theorem fixedWidth_val {w i : Nat} (h : i < 10 ^ w) : decimalVal (fixedWidth w i) = i := by
  induction w generalizing i with
  | zero => simp at h; subst h; rfl
  | succ w ih =>
    have h1 : i / 10 < 10 ^ w := by rw [Nat.div_lt_iff_lt_mul (by omega)]; rw [pow_succ] at h; exact h
    have := ih h1
    unfold decimalVal at this ⊢
    rw [fixedWidth, List.foldl_append, this]
    simp only [List.foldl_cons, List.foldl_nil]
    rw [(digitChar_facts _ (Nat.mod_lt _ (by omega))).2.1]
    omega

theorem fixedWidth_zero (w : Nat) : fixedWidth w 0 = List.replicate w '0' := by
  induction w with
  | zero => rfl
  | succ w ih =>
    rw [fixedWidth, Nat.zero_div, ih, List.replicate_succ']
    rfl

theorem zeroPad_eq {w i : Nat} (hw : 0 < w) (h : i < 10 ^ w) : zeroPad w i = fixedWidth w i := by
  induction w generalizing i with
  | zero => omega
  | succ w ih =>
    unfold zeroPad
    rw [decimal]
    split
    · rename_i hi
      rw [fixedWidth, Nat.div_eq_of_lt hi, fixedWidth_zero, Nat.mod_eq_of_lt hi]
      rfl
    · rename_i hi
      have h1 : i / 10 < 10 ^ w := by rw [Nat.div_lt_iff_lt_mul (by omega)]; rw [pow_succ] at h; exact h
      have hw' : 0 < w := by
        rcases Nat.eq_zero_or_pos w with rfl | hw'
        · simp at h; omega
        · exact hw'
      have := ih hw' h1
      unfold zeroPad at this
      rw [fixedWidth, ← this, List.append_assoc, List.length_append]
      simp

theorem decimal_digits (n : Nat) : ∀ c ∈ decimal n, c.isDigit = true := by
  induction n using Nat.strong_induction_on with
  | _ n ih =>
    intro c hc
    rw [decimal] at hc
    split at hc
    · rename_i hn
      rw [List.mem_singleton] at hc
      subst hc
      exact (digitChar_facts n hn).1
    · rename_i hn
      rw [List.mem_append, List.mem_singleton] at hc
      rcases hc with hc | rfl
      · exact ih (n / 10) (by omega) c hc
      · exact (digitChar_facts _ (Nat.mod_lt _ (by omega))).1

theorem decimal_val (n : Nat) : decimalVal (decimal n) = n := by
  induction n using Nat.strong_induction_on with
  | _ n ih =>
    rw [decimal]
    split
    · rename_i hn
      show 10 * 0 + digitVal (Nat.digitChar n) = n
      rw [(digitChar_facts n hn).2.1]
      omega
    · rename_i hn
      have := ih (n / 10) (by omega)
      unfold decimalVal at this ⊢
      rw [List.foldl_append, this]
      simp only [List.foldl_cons, List.foldl_nil]
      rw [(digitChar_facts _ (Nat.mod_lt _ (by omega))).2.1]
      omega

theorem decimal_ne_nil (n : Nat) : decimal n ≠ [] := by
  rw [decimal]
  split <;> simp

theorem isDigit_ne {c : Char} (h : c.isDigit = true) : c ≠ '@' ∧ c ≠ 'd' := by
  constructor <;> (rintro rfl; exact absurd h (by decide))

theorem parseInt_decimal (n : Nat) : parseInt (decimal n) = .ok n := by
  unfold parseInt
  rw [if_pos ⟨decimal_ne_nil n, List.all_eq_true.2 (decimal_digits n)⟩, decimal_val]

theorem writes_fixedWidth {w i : Nat} (h : i < 10 ^ w) : WritesNumber (fixedWidth w i) w i :=
  ⟨fixedWidth_length w i, fixedWidth_digits w i, fixedWidth_val h⟩

/-! ### Formatting -/

theorem pyFormatFrom_text {s : List Char} (h : '%' ∉ s) (rest : List Char) (args : List Nat) :
    pyFormatFrom .text (s ++ rest) args = (pyFormatFrom .text rest args).map (s ++ ·) := by
  induction s with
  | nil => cases hr : pyFormatFrom .text rest args <;> simp [hr, Except.map]
  | cons c s ih =>
    rw [List.mem_cons, not_or] at h
    rw [List.cons_append, pyFormatFrom, if_neg (fun he => h.1 he.symm), ih h.2]
    cases pyFormatFrom .text rest args <;> rfl

theorem pyFormatFrom_width {s : List Char} (h : ∀ c ∈ s, c.isDigit = true) (rest : List Char) (w a : Nat) (args : List Nat) :
    pyFormatFrom (.width w) (s ++ 'd' :: rest) (a :: args) =
      (pyFormatFrom .text rest args).map (zeroPad (s.foldl (fun a c => 10 * a + digitVal c) w) a ++ ·) := by
  induction s generalizing w with
  | nil => rw [List.nil_append, pyFormatFrom, if_pos rfl]; rfl
  | cons c s ih =>
    have hc := h c List.mem_cons_self
    rw [List.cons_append, pyFormatFrom, if_neg (isDigit_ne hc).2, if_pos hc, ih (fun c hc => h c (List.mem_cons_of_mem _ hc))]
    rfl

theorem pyFormat_name {base : List Char} (h : '%' ∉ base) (w i n : Nat) :
    pyFormat (base ++ ['-', '%', '0'] ++ decimal w ++ "d-of-%05d".toList) [i, n] =
      .ok (base ++ ("-".toList ++ (zeroPad w i ++ ("-of-".toList ++ zeroPad 5 n)))) := by
  unfold pyFormat
  rw [List.append_assoc, List.append_assoc, pyFormatFrom_text h]
  have h2 : pyFormatFrom .text (['-', '%', '0'] ++ (decimal w ++ "d-of-%05d".toList)) [i, n] =
      (pyFormatFrom (.width 0) (decimal w ++ 'd' :: "-of-%05d".toList) [i, n]).map ('-' :: ·) := rfl
  rw [h2, pyFormatFrom_width (decimal_digits w)]
  have h3 : pyFormatFrom .text "-of-%05d".toList [n] = .ok ("-of-".toList ++ zeroPad 5 n) := by
    have : pyFormatFrom .text "-of-%05d".toList [n] = Except.ok ("-of-".toList ++ (zeroPad 5 n ++ [])) := rfl
    rw [this, List.append_nil]
  rw [h3]
  have := decimal_val w
  unfold decimalVal at this
  rw [this]
  rfl

theorem splitAt_no_at {s : List Char} (h : '@' ∉ s) : splitAt s = [s] := by
  induction s with
  | nil => rfl
  | cons c s ih =>
    rw [List.mem_cons, not_or] at h
    rw [splitAt, ih h.2]
    exact fun he => h.1 he.symm

theorem splitAt_one {s t : List Char} (hs : '@' ∉ s) (ht : '@' ∉ t) : splitAt (s ++ '@' :: t) = [s, t] := by
  induction s with
  | nil => rw [List.nil_append, splitAt, splitAt_no_at ht]
  | cons c s ih =>
    rw [List.mem_cons, not_or] at hs
    rw [List.cons_append, splitAt, ih hs.2]
    exact fun he => hs.1 he.symm

theorem mapM_ok {α β : Type} {f : α → Except Err β} {g : α → β} {l : List α} (h : ∀ x ∈ l, f x = .ok (g x)) :
    l.mapM f = .ok (l.map g) := by
  induction l with
  | nil => rfl
  | cons a l ih =>
    rw [List.mapM_cons, h a List.mem_cons_self, ih fun x hx => h x (List.mem_cons_of_mem _ hx)]
    rfl

/-! ### Order of names -/

theorem lt_append_of_lt {a b : List Char} (hl : a.length = b.length) (h : a < b) (x y : List Char) : a ++ x < b ++ y := by
  induction a generalizing b with
  | nil =>
    cases b with
    | nil => exact absurd h (by decide)
    | cons _ _ => simp at hl
  | cons c a ih =>
    cases b with
    | nil => simp at hl
    | cons d b =>
      rw [List.cons_lt_cons_iff] at h
      rw [List.cons_append, List.cons_append, List.cons_lt_cons_iff]
      rcases h with h | ⟨rfl, h⟩
      · exact Or.inl h
      · exact Or.inr ⟨rfl, ih (by simpa using hl) h⟩

theorem append_lt_append_left {a b : List Char} (c : List Char) (h : a < b) : c ++ a < c ++ b := by
  induction c with
  | nil => exact h
  | cons d c ih => rw [List.cons_append, List.cons_append, List.cons_lt_cons_iff]; exact Or.inr ⟨rfl, ih⟩

theorem fixedWidth_lt {w i j : Nat} (h : i < j) (hj : j < 10 ^ w) : fixedWidth w i < fixedWidth w j := by
  induction w generalizing i j with
  | zero => simp at hj; omega
  | succ w ih =>
    rw [fixedWidth, fixedWidth]
    have h1 : j / 10 < 10 ^ w := by rw [Nat.div_lt_iff_lt_mul (by omega)]; rw [pow_succ] at hj; exact hj
    rcases Nat.lt_or_ge (i / 10) (j / 10) with hlt | hge
    · exact lt_append_of_lt (by rw [fixedWidth_length, fixedWidth_length]) (ih hlt h1) _ _
    · have he : i / 10 = j / 10 := by omega
      rw [he]
      refine append_lt_append_left _ ?_
      rw [List.cons_lt_cons_iff]
      exact Or.inl (digitChar_lt (by omega) (Nat.mod_lt _ (by omega)))

/-! ### C55 -/

/-- The full expectation for a data set with base name `base` and `n` files. -/
def GoodNames (base : List Char) (n : Nat) : Prop :=
  ∃ names, generateShardedFilenames (base ++ '@' :: decimal n) = .ok names ∧ names.length = n ∧
    (∀ (i : Nat) (h : i < names.length), IsShardName base n i names[i]) ∧
    names.Pairwise (fun a b => a.length = b.length ∧ a < b)

theorem digits_bound (n : Nat) : n < 10 ^ max 5 (Nat.log 10 n + 1) :=
  lt_of_lt_of_le (Nat.lt_pow_succ_log_self (by omega) n) (Nat.pow_le_pow_right (by omega) (le_max_right _ _))

theorem zeroPad_long {w n : Nat} (h : w ≤ (decimal n).length) : zeroPad w n = decimal n := by
  unfold zeroPad
  rw [Nat.sub_eq_zero_of_le h]
  rfl

/-- For a base name without `%` and `@`: exactly `n` names, name `i` is the conventional one, all have the same length and they are
in strictly increasing (so distinct) alphabetical order. Missing: base names with `%` or `@`. -/
theorem C55_names_partial (base : List Char) (hp : '%' ∉ base) (ha : '@' ∉ base) (n : Nat) (hn : 1 ≤ n) :
    GoodNames base n := by
  have hd : '@' ∉ decimal n := fun h => (isDigit_ne (decimal_digits n _ h)).1 rfl
  let name := fun i => base ++ ("-".toList ++ (fixedWidth (max 5 (Nat.log 10 n + 1)) i ++ ("-of-".toList ++ zeroPad 5 n)))
  have hgen : generateShardedFilenames (base ++ '@' :: decimal n) = .ok ((List.range n).map name) := by
    unfold generateShardedFilenames
    rw [splitAt_one ha hd]
    simp only [parseInt_decimal, bind, Except.bind, show ¬ n = 0 by omega, if_false]
    refine mapM_ok fun i hi => ?_
    rw [pyFormat_name hp]
    rw [zeroPad_eq (by have := le_max_left 5 (Nat.log 10 n + 1); omega) ((List.mem_range.1 hi).trans (digits_bound n))]
  have hnum : ∃ w', 5 ≤ w' ∧ WritesNumber (zeroPad 5 n) w' n := by
    rcases Nat.lt_or_ge (decimal n).length 5 with h | h
    · refine ⟨5, le_refl _, ?_, ?_, ?_⟩
      · unfold zeroPad; simp; omega
      · intro c hc
        unfold zeroPad at hc
        rw [List.mem_append] at hc
        rcases hc with hc | hc
        · rw [(List.mem_replicate.1 hc).2]; decide
        · exact decimal_digits n c hc
      · have : decimalVal (zeroPad 5 n) = n := by
          unfold zeroPad decimalVal
          rw [List.foldl_append]
          have hz : ∀ m, (List.replicate m '0').foldl (fun a c => 10 * a + digitVal c) 0 = 0 := by
            intro m
            induction m with
            | zero => rfl
            | succ m ih => rw [List.replicate_succ, List.foldl_cons]; exact ih
          rw [hz]
          exact decimal_val n
        exact this
    · exact ⟨_, h, by rw [zeroPad_long h], fun c hc => decimal_digits n c (by rwa [zeroPad_long h] at hc), by
        rw [zeroPad_long h]; exact decimal_val n⟩
  obtain ⟨w', hw', hnum⟩ := hnum
  refine ⟨_, hgen, by simp, ?_, ?_⟩
  · intro i hi
    have hi' : i < n := by simpa using hi
    rw [List.getElem_map, List.getElem_range]
    exact ⟨max 5 (Nat.log 10 n + 1), w', fixedWidth (max 5 (Nat.log 10 n + 1)) i, zeroPad 5 n, le_max_left _ _,
      writes_fixedWidth (hi'.trans (digits_bound n)), hw', hnum, by simp [name]⟩
  · rw [List.pairwise_map]
    refine List.Pairwise.imp_of_mem (R := (· < ·)) ?_ List.pairwise_lt_range
    intro i j hi hj hij
    have hj' := (List.mem_range.1 hj).trans (digits_bound n)
    constructor
    · simp [name, fixedWidth_length]
    · refine append_lt_append_left _ (append_lt_append_left _ ?_)
      exact lt_append_of_lt (by rw [fixedWidth_length, fixedWidth_length]) (fixedWidth_lt hij hj') _ _

/-- A base name with a percent sign is taken as a format and rejected. -/
theorem C55_violated : ¬ ∀ base n, 1 ≤ n → GoodNames base n := by
  intro hall
  obtain ⟨names, h, -⟩ := hall "50%train".toList 1 (le_refl _)
  have : generateShardedFilenames ("50%train".toList ++ '@' :: decimal 1) = .error .valueError := by
    have h1 : decimal 1 = ['1'] := by rw [decimal]; rfl
    rw [h1]
    decide +revert
  rw [this] at h
  cases h

/-- A second `@`, for instance in the directory, is rejected. -/
theorem C55_second_at_rejected (a b c : List Char) (ha : '@' ∉ a) (hb : '@' ∉ b) (hc : '@' ∉ c) :
    generateShardedFilenames (a ++ '@' :: (b ++ '@' :: c)) = .error .valueError := by
  have h : splitAt (a ++ '@' :: (b ++ '@' :: c)) = [a, b, c] := by
    induction a with
    | nil =>
      rw [List.nil_append, splitAt]
      rw [splitAt_one hb hc]
    | cons x a ih =>
      rw [List.mem_cons, not_or] at ha
      rw [List.cons_append, splitAt, ih ha.2]
      exact fun he => ha.1 he.symm
  unfold generateShardedFilenames
  rw [h]

/-- A path whose last component has no `@` is read as a single file. -/
theorem C55_single_file (path : List Char) (h : '@' ∉ basename path) : filesToLoad path = .ok [path] := by
  unfold filesToLoad
  rw [if_neg h]

example : GoodNames "training.tfrecord".toList 1000 := C55_names_partial _ (by decide) (by decide) _ (by omega)

end Waymax
