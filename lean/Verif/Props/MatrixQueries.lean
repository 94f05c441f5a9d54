import Verif.Props.MatrixShapes

/-!
# Asking a matrix about its rows and columns (C184)
-/

open Outcome Mat

namespace MatQueries

open Classical in
theorem all_of {m : ℕ} {F : ℤ → Outcome Bool} {q : Fin m → Prop} (h : ∀ i : Fin m, F (i : ℕ) = ok (decide (q i))) : allM F ((List.range m).map Int.ofNat) = ok (decide (∀ i, q i)) := by
  rw [allM_ok (q := fun j : ℤ => ∀ h : 0 ≤ j ∧ j < m, q ⟨j.toNat, by omega⟩)]
  · congr 1
    rw [decide_eq_decide]
    simp only [List.mem_map, List.mem_range, forall_exists_index, and_imp]
    constructor
    · intro h i
      exact h i i i.2 rfl ⟨by omega, by have := i.2; omega⟩
    · rintro h _ i hi rfl h1
      exact h _
  · intro i hi
    simp only [List.mem_map, List.mem_range] at hi
    obtain ⟨i, hi, rfl⟩ := hi
    simp only [Int.ofNat_eq_natCast]
    rw [h ⟨i, hi⟩]
    congr 1
    rw [decide_eq_decide]
    constructor
    · intro h _; exact h
    · intro h; exact h ⟨by omega, by omega⟩

theorem all_ub {m : ℕ} {F : ℤ → Outcome Bool} (hm : 0 < m) (h : F 0 = ub) : allM F ((List.range m).map Int.ofNat) = ub := by
  obtain ⟨k, rfl⟩ : ∃ k, m = k + 1 := ⟨m - 1, by omega⟩
  rw [List.range_succ_eq_map, List.map_cons, allM, show F (Int.ofNat 0) = ub from h]
  rfl

theorem raw_neg {K : Type} (v : List (List K)) {i j : ℤ} (h : i < 0 ∨ j < 0) : raw v i j = ub := if_pos h

theorem rows_id {K : Type} {n p : ℕ} (M : Matrix (Fin n) (Fin p) K) : (ofMatrix id M).rows = n := rfl
theorem cols_id {K : Type} {n p : ℕ} (M : Matrix (Fin n) (Fin p) K) : (ofMatrix id M).cols = p := rfl

end MatQueries

open MatQueries

section
variable {K : Type} [Elem K] {n p : ℕ} (M : Matrix (Fin n) (Fin p) K)

open Classical in
/-- **C184** Whether a row is zero, for every index: the answer for the rows that exist, "no" above them; a negative index is undefined, unless there are no columns. -/
theorem C184_row_partial : (∀ i : Fin n, (ofMatrix id M).isRowNull (i : ℕ) = ok (decide (∀ j, Elem.same (M i j) 0))) ∧ (∀ i : ℤ, n ≤ i → (ofMatrix id M).isRowNull i = ok false) ∧
    ∀ i : ℤ, i < 0 → (ofMatrix id M).isRowNull i = if 0 < p then ub else ok true := by
  refine ⟨fun i => ?_, fun i h => if_pos h, fun i h => ?_⟩
  · unfold isRowNull
    rw [rows_id, cols_id, if_neg (by have := i.2; omega), Int.toNat_natCast]
    exact all_of fun j => by rw [raw_ofMatrix' id M i j i.2 j.2, ok_bind]; rfl
  · unfold isRowNull
    rw [rows_id, cols_id, if_neg (by omega), Int.toNat_natCast]
    split_ifs with hp
    · exact all_ub hp (by rw [raw_neg _ (.inl h)]; rfl)
    · obtain rfl : p = 0 := by omega
      rfl

open Classical in
/-- **C184** Whether a column is zero. -/
theorem C184_column_partial : (∀ j : Fin p, (ofMatrix id M).isColumnNull (j : ℕ) = ok (decide (∀ i, Elem.same (M i j) 0))) ∧ (∀ j : ℤ, p ≤ j → (ofMatrix id M).isColumnNull j = ok false) ∧
    ∀ j : ℤ, j < 0 → (ofMatrix id M).isColumnNull j = if 0 < n then ub else ok true := by
  refine ⟨fun j => ?_, fun j h => if_pos h, fun j h => ?_⟩
  · unfold isColumnNull
    rw [rows_id, cols_id, if_neg (by have := j.2; omega), Int.toNat_natCast]
    exact all_of fun i => by rw [raw_ofMatrix' id M i j i.2 j.2, ok_bind]; rfl
  · unfold isColumnNull
    rw [rows_id, cols_id, if_neg (by omega), Int.toNat_natCast]
    split_ifs with hn
    · exact all_ub hn (by rw [raw_neg _ (.inr h)]; rfl)
    · obtain rfl : n = 0 := by omega
      rfl

open Classical in
/-- **C184** Whether two rows are equal. -/
theorem C184_rows_equal_partial : (∀ i i' : Fin n, (ofMatrix id M).areRowsEqual (i : ℕ) (i' : ℕ) = ok (decide (∀ j, Elem.same (M i j) (M i' j)))) ∧
    (∀ i i' : ℤ, n ≤ i ∨ n ≤ i' → (ofMatrix id M).areRowsEqual i i' = ok false) ∧
    ∀ i i' : ℤ, i < n → i' < n → i < 0 ∨ i' < 0 → (ofMatrix id M).areRowsEqual i i' = if 0 < p then ub else ok true := by
  refine ⟨fun i i' => ?_, fun i i' h => if_pos h, fun i i' h1 h2 h => ?_⟩
  · unfold areRowsEqual
    rw [rows_id, cols_id, if_neg (by have := i.2; have := i'.2; omega), Int.toNat_natCast]
    exact all_of fun j => by rw [raw_ofMatrix' id M i j i.2 j.2, ok_bind, raw_ofMatrix' id M i' j i'.2 j.2, ok_bind]; rfl
  · unfold areRowsEqual
    rw [rows_id, cols_id, if_neg (by omega), Int.toNat_natCast]
    split_ifs with hp
    · refine all_ub hp ?_
      by_cases h0 : i < 0
      · rw [raw_neg _ (.inl h0)]; rfl
      · obtain ⟨k, rfl⟩ := Int.eq_ofNat_of_zero_le (not_lt.mp h0)
        rw [show raw (ofMatrix id M).vals ((k : ℕ) : ℤ) 0 = _ from raw_ofMatrix' id M k 0 (by omega) hp, ok_bind, raw_neg _ (.inl (by omega))]
        rfl
    · obtain rfl : p = 0 := by omega
      rfl

open Classical in
/-- **C184** Whether two columns are equal. -/
theorem C184_columns_equal_partial : (∀ j j' : Fin p, (ofMatrix id M).areColumnsEqual (j : ℕ) (j' : ℕ) = ok (decide (∀ i, Elem.same (M i j) (M i j')))) ∧
    (∀ j j' : ℤ, p ≤ j ∨ p ≤ j' → (ofMatrix id M).areColumnsEqual j j' = ok false) ∧
    ∀ j j' : ℤ, j < p → j' < p → j < 0 ∨ j' < 0 → (ofMatrix id M).areColumnsEqual j j' = if 0 < n then ub else ok true := by
  refine ⟨fun j j' => ?_, fun j j' h => if_pos h, fun j j' h1 h2 h => ?_⟩
  · unfold areColumnsEqual
    rw [rows_id, cols_id, if_neg (by have := j.2; have := j'.2; omega), Int.toNat_natCast]
    exact all_of fun i => by rw [raw_ofMatrix' id M i j i.2 j.2, ok_bind, raw_ofMatrix' id M i j' i.2 j'.2, ok_bind]; rfl
  · unfold areColumnsEqual
    rw [rows_id, cols_id, if_neg (by omega), Int.toNat_natCast]
    split_ifs with hn
    · refine all_ub hn ?_
      by_cases h0 : j < 0
      · rw [raw_neg _ (.inr h0)]; rfl
      · obtain ⟨k, rfl⟩ := Int.eq_ofNat_of_zero_le (not_lt.mp h0)
        rw [show raw (ofMatrix id M).vals 0 ((k : ℕ) : ℤ) = _ from raw_ofMatrix' id M 0 k hn (by omega), ok_bind, raw_neg _ (.inr (by omega))]
        rfl
    · obtain rfl : n = 0 := by omega
      rfl

/-- **C184 violated** For the row with the index -1, which no matrix has, the answer is undefined. -/
theorem C184_negative_violated (hp : 0 < p) (hn : 0 < n) : (ofMatrix id M).isRowNull (-1) = ub ∧ (ofMatrix id M).isColumnNull (-1) = ub ∧ (ofMatrix id M).areRowsEqual (-1) 0 = ub ∧
    (ofMatrix id M).areColumnsEqual 0 (-1) = ub := by
  refine ⟨?_, ?_, ?_, ?_⟩
  · rw [(C184_row_partial M).2.2 _ (by norm_num), if_pos hp]
  · rw [(C184_column_partial M).2.2 _ (by norm_num), if_pos hn]
  · rw [(C184_rows_equal_partial M).2.2 _ _ (by omega) (by omega) (.inl (by norm_num)), if_pos hp]
  · rw [(C184_columns_equal_partial M).2.2 _ _ (by omega) (by omega) (.inr (by norm_num)), if_pos hn]

end

/-- The second row is zero, the third does not exist, the columns differ. -/
example : letI := fieldElem ℚ; (ofMatrix id !![(1 : ℚ), 2; 0, 0]).isRowNull 1 = ok true ∧ (ofMatrix id !![(1 : ℚ), 2; 0, 0]).isRowNull 2 = ok false ∧
    (ofMatrix id !![(1 : ℚ), 2; 0, 0]).areColumnsEqual 0 1 = ok false := by
  letI := fieldElem ℚ
  refine ⟨((C184_row_partial !![(1 : ℚ), 2; 0, 0]).1 1).trans ?_, (C184_row_partial !![(1 : ℚ), 2; 0, 0]).2.1 2 (by norm_num),
    ((C184_columns_equal_partial !![(1 : ℚ), 2; 0, 0]).1 0 1).trans ?_⟩
  · rw [decide_eq_true]
    intro j
    fin_cases j <;> exact ((emb_id ℚ).same _ _).mpr rfl
  · rw [decide_eq_false]
    intro h
    have := ((emb_id ℚ).same _ _).mp (h 0)
    norm_num at this
/-- The row before the first. -/
example : letI := fieldElem ℚ; (ofMatrix id !![(1 : ℚ), 2; 0, 0]).isRowNull (-1) = ub :=
  letI := fieldElem ℚ
  (C184_negative_violated !![(1 : ℚ), 2; 0, 0] (by norm_num) (by norm_num)).1
