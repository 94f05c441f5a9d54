import Verif.Props.MatrixQueries

/-!
# Making and filling matrices (C186)
-/

open Outcome Mat

namespace MatMaking

theorem set_step {α : Type} (x : α) (l : List α) (k : ℕ) (h : k < l.length) : (List.replicate k x ++ l.drop k).set k x = List.replicate (k + 1) x ++ l.drop (k + 1) := by
  rw [List.set_append, if_neg (by simp), List.replicate_succ', List.length_replicate, Nat.sub_self, List.drop_eq_getElem_cons h, List.set_cons_zero, List.append_assoc]
  rfl

theorem row_fill {K : Type} (x : K) (v : List (List K)) (i : ℕ) (row : List K) (hv : v[i]? = some row) (k : ℕ) (hk : k ≤ row.length) :
    loop (fun v j => setRaw v i j x) v k = ok (v.set i (List.replicate k x ++ row.drop k)) := by
  obtain ⟨hi, hr⟩ := List.getElem?_eq_some_iff.mp hv
  induction k with
  | zero =>
    rw [loop]
    simp only [List.replicate_zero, List.drop_zero, List.nil_append, ok_inj]
    rw [← hr, List.set_getElem_self]
  | succ k ih =>
    rw [loop, ih (by omega), ok_bind, setRaw]
    simp only [List.getElem?_set_self hi]
    rw [if_pos (by simp; omega), List.set_set, set_step x row k hk]

theorem all_fill {K : Type} (x : K) (p : ℕ) (v : List (List K)) (hv : ∀ row ∈ v, row.length = p) (k : ℕ) (hk : k ≤ v.length) :
    loop (fun v i => loop (fun v j => setRaw v i j x) v p) v k = ok (List.replicate k (List.replicate p x) ++ v.drop k) := by
  induction k with
  | zero => simp [loop]
  | succ k ih =>
    have hl : v[k].length = p := hv _ (List.getElem_mem _)
    rw [loop, ih (by omega), ok_bind, row_fill x _ k v[k] (by rw [List.getElem?_append_right (by simp)]; simp [hk]) p hl.ge, ← set_step _ v k hk]
    rw [List.drop_eq_nil_of_le hl.le, List.append_nil]

theorem const_rows {K : Type} (x : K) (n p : ℕ) : List.replicate n (List.replicate p x) = List.ofFn fun _ : Fin n => List.ofFn fun _ : Fin p => x := by
  rw [List.ofFn_const, List.ofFn_const]

end MatMaking

open MatMaking MatQueries

section
variable {K : Type}

/-- **C186** The constructor with a value makes a matrix with that value everywhere; a negative size is an exception. -/
theorem C186_create (x : K) : (∀ n p : ℕ, create n p x = ok (ofMatrix id (Matrix.of fun (_ : Fin n) (_ : Fin p) => x))) ∧
    ∀ r c : ℤ, r < 0 ∨ (0 < r ∧ c < 0) → create r c x = Outcome.throw ⟨.lengthError, false⟩ := by
  refine ⟨fun n p => ?_, fun r c h => ?_⟩
  · unfold create
    rw [if_neg (by omega), if_neg (by omega), Int.toNat_natCast, Int.toNat_natCast, const_rows]
    rfl
  · unfold create
    by_cases h1 : r < 0
    · rw [if_pos h1]; rfl
    · rw [if_neg h1, if_pos (by omega)]; rfl

variable [Elem K]

/-- **C186** The constructors without a value make zero matrices. -/
theorem C186_zero (n p : ℕ) : ofSize (K := K) n p = ok (ofMatrix id (Matrix.of fun (_ : Fin n) (_ : Fin p) => 0)) ∧ ofSquare (K := K) n = ok (ofMatrix id (Matrix.of fun (_ : Fin n) (_ : Fin n) => 0)) :=
  ⟨(C186_create 0).1 n p, (C186_create 0).1 n n⟩

/-- **C186** Filling sets every element and keeps the shape. -/
theorem C186_fill {n p : ℕ} (M : Matrix (Fin n) (Fin p) K) (x : K) : (ofMatrix id M).fill x = ok (ofMatrix id (Matrix.of fun (_ : Fin n) (_ : Fin p) => x)) := by
  unfold fill
  have hl : (ofMatrix id M).vals.length = n := by simp [ofMatrix]
  rw [rows_id, cols_id, Int.toNat_natCast, Int.toNat_natCast, all_fill x p _ (by
    intro row h
    simp only [ofMatrix, List.mem_ofFn] at h
    obtain ⟨i, rfl⟩ := h
    simp) n hl.ge, ok_bind, List.drop_eq_nil_of_le hl.le, List.append_nil, const_rows]
  rfl

/-- **C186** The constructors from a list put element `i * columns + j` at (i, j) for square matrices and single rows, and make a zero matrix if the list does not have as many elements as the matrix.
Missing: other shapes, see `C22_violated`. -/
theorem C186_list_partial (n p : ℕ) (l : List K) (hs : n * p < 2 ^ 31) : (l.length = n * p → n = p ∨ n ≤ 1 →
      ∃ N : Matrix (Fin n) (Fin p) K, ofList n p l = ok (ofMatrix id N) ∧ ∀ (i : Fin n) (j : Fin p), l[(i : ℕ) * p + j]? = some (N i j)) ∧
    (l.length ≠ n * p → ofList n p l = ok (ofMatrix id (Matrix.of fun (_ : Fin n) (_ : Fin p) => 0))) ∧ (n = p → ofSquareList n l = ofList n p l) := by
  have hz := (C186_zero (K := K) n p).1
  refine ⟨fun hl h => ?_, fun hl => ?_, ?_⟩
  · obtain ⟨N, h1, h2⟩ := C22_insert_partial (Matrix.of fun (_ : Fin n) (_ : Fin p) => (0 : K)) l hl hs h
    exact ⟨N, by rw [ofList, hz, ok_bind, h1], h2⟩
  · rw [ofList, hz, ok_bind, C22_wrong_length _ l hl hs]
  · rintro rfl
    rfl

end

/-- A 2×3 matrix of sevens, filled with eights. -/
example : letI := fieldElem ℚ; ∃ m, create 2 3 (7 : ℚ) = ok m ∧ ∃ m', m.fill 8 = ok m' ∧ m'.at' 1 2 = ok 8 := by
  letI := fieldElem ℚ
  refine ⟨_, (C186_create 7).1 2 3, _, C186_fill _ 8, ?_⟩
  exact C21_inside (Matrix.of fun (_ : Fin 2) (_ : Fin 3) => (8 : ℚ)) id 1 2
/-- A square matrix from a list, and one from a list that is too short. -/
example : letI := fieldElem ℚ; (∃ N : Matrix (Fin 2) (Fin 2) ℚ, ofList 2 2 [1, 2, 3, 4] = ok (ofMatrix id N) ∧ N 1 0 = 3) ∧ ofList 2 2 [(1 : ℚ)] = ok (ofMatrix id (Matrix.of fun (_ _ : Fin 2) => 0)) := by
  letI := fieldElem ℚ
  obtain ⟨N, h1, h2⟩ := (C186_list_partial 2 2 [(1 : ℚ), 2, 3, 4] (by norm_num)).1 rfl (.inl rfl)
  refine ⟨⟨N, h1, ?_⟩, (C186_list_partial 2 2 [(1 : ℚ)] (by norm_num)).2.1 (by simp)⟩
  have := h2 1 0
  simp at this
  exact this.symm
/-- A negative number of columns. -/
example : create 2 (-1) (7 : ℚ) = Outcome.throw ⟨.lengthError, false⟩ := (C186_create 7).2 2 (-1) (.inr (by norm_num))
