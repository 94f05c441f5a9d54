import Verif.MatrixLemmas
import Mathlib.Tactic.FinCases
import Mathlib.LinearAlgebra.Matrix.Notation
import Mathlib.Algebra.Field.Rat

/-!
# Properties of `matrix<T>` (C15 – C25)

`Mat.ofMatrix f M` is the object whose cells hold `f (M i j)`.  Theorems with `Emb f` hold for every element type that
carries an exact field through `f`: any field itself (`Mat.emb_id`) and finite floats in exact arithmetic (`Mat.emb_fin`).
Theorems without it hold for every element type, hence for every rounding.
-/

open Outcome Mat

namespace MatSpec

/-- `values()` has `rows()` rows of `columns()` elements each. -/
def WellShaped {K : Type} (m : Mat K) : Prop :=
  (m.vals.length : ℤ) = m.rows ∧ ∀ row ∈ m.vals, (row.length : ℤ) = m.cols

/-- Every matrix a program can hold after any sequence of calls that return (or, for `resize`, throw).  `ok r c` says which calls
`resize(r,c,..)` the program makes. -/
inductive History {K : Type} [Elem K] (ok : ℤ → ℤ → Prop) : Mat K → Prop
  | empty : History ok Mat.empty
  | create {r c x m} : Mat.create r c x = .ok m → History ok m
  | ofSize {r c m} : Mat.ofSize r c = .ok m → History ok m
  | ofSquare {n m} : Mat.ofSquare n = .ok m → History ok m
  | ofList {r c l m} : Mat.ofList r c l = .ok m → History ok m
  | ofSquareList {n l m} : Mat.ofSquareList n l = .ok m → History ok m
  | identity {n m} : Mat.identity n = .ok m → History ok m
  | copy {m} : History ok m → History ok m.copy
  | assign {m o m'} : History ok m → History ok o → m.assign o = .ok m' → History ok m'
  | add {m o m'} : History ok m → History ok o → m.add o = .ok m' → History ok m'
  | sub {m o m'} : History ok m → History ok o → m.sub o = .ok m' → History ok m'
  | mul {m o m'} : History ok m → History ok o → m.mul o = .ok m' → History ok m'
  | addAssign {m o m'} : History ok m → History ok o → m.addAssign o = .ok m' → History ok m'
  | subAssign {m o m'} : History ok m → History ok o → m.subAssign o = .ok m' → History ok m'
  | mulAssign {m o m'} : History ok m → History ok o → m.mulAssign o = .ok m' → History ok m'
  | addScalar {m x m'} : History ok m → m.addScalar x = .ok m' → History ok m'
  | subScalar {m x m'} : History ok m → m.subScalar x = .ok m' → History ok m'
  | mulScalar {m x m'} : History ok m → m.mulScalar x = .ok m' → History ok m'
  | divScalar {m x m'} : History ok m → m.divScalar x = .ok m' → History ok m'
  | transpose {m m'} : History ok m → m.transpose = .ok m' → History ok m'
  | adjoint {m m'} : History ok m → m.adjoint = .ok m' → History ok m'
  | invert {m m'} : History ok m → m.invert = .ok m' → History ok m'
  | fill {m x m'} : History ok m → m.fill x = .ok m' → History ok m'
  | insert {m l m'} : History ok m → m.insert l = .ok m' → History ok m'
  | resize {m r c x} : History ok m → ok r c → History ok (m.resize r c x).1

end MatSpec

open MatSpec

namespace MatLemmas
variable {K : Type} [Elem K]

omit [Elem K] in
theorem wf_mk {r c : ℤ} (hr : 0 ≤ r) (hc : r = 0 ∨ 0 ≤ c) {v : List (List K)}
    (h : v.length = r.toNat ∧ ∀ row ∈ v, row.length = c.toNat) : WellShaped ⟨r, c, v⟩ := by
  refine ⟨by show (v.length : ℤ) = r; omega, fun row hrow => ?_⟩
  have h2 := h.2 row hrow
  have : v.length ≠ 0 := by
    intro h0
    rw [List.length_eq_zero_iff] at h0
    subst h0; simp at hrow
  show (row.length : ℤ) = c
  omega

omit [Elem K] in
theorem create_ok {r c : ℤ} {x : K} {m : Mat K} (h : create r c x = .ok m) :
    0 ≤ r ∧ (r = 0 ∨ 0 ≤ c) ∧ m = ⟨r, c, List.replicate r.toNat (List.replicate c.toNat x)⟩ := by
  unfold create at h
  split at h
  · simp [lengthError] at h
  · split at h
    · simp [lengthError] at h
    · simp only [ok_inj] at h
      exact ⟨by omega, by omega, h.symm⟩

omit [Elem K] in
theorem create_wf {r c : ℤ} {x : K} {m : Mat K} (h : create r c x = .ok m) : WellShaped m := by
  obtain ⟨h1, h2, rfl⟩ := create_ok h
  apply wf_mk h1 h2
  refine ⟨by simp, ?_⟩
  intro row hrow
  rw [List.mem_replicate] at hrow
  simp [hrow.2]

omit [Elem K] in
theorem wf_dims {m : Mat K} (h : WellShaped m) : 0 ≤ m.rows ∧ (m.rows = 0 ∨ 0 ≤ m.cols) := by
  obtain ⟨h1, h2⟩ := h
  refine ⟨by omega, ?_⟩
  by_cases h0 : m.rows = 0
  · left; exact h0
  · right
    have : m.vals ≠ [] := by
      rintro h3; rw [h3] at h1; simp at h1; omega
    obtain ⟨row, hrow⟩ := List.exists_mem_of_ne_nil _ this
    have := h2 row hrow
    omega

theorem after_build {r c : ℤ} {x : K} {f : Mat K → ℕ → ℕ → Outcome K} {m : Mat K}
    (h : (create r c x >>= fun q => build r.toNat c.toNat (f q) >>= fun v => Outcome.ok { q with vals := v }) = .ok m) : WellShaped m := by
  rw [bind_eq_ok] at h
  obtain ⟨q, h1, h⟩ := h
  rw [bind_eq_ok] at h
  obtain ⟨v, h2, h⟩ := h
  simp only [ok_inj] at h
  obtain ⟨h3, h4, rfl⟩ := create_ok h1
  subst h
  exact wf_mk h3 h4 (build_shape h2)

theorem zipWith_wf {op : K → K → K} {m o m' : Mat K} (h : m.zipWith op o = .ok m') : WellShaped m' := by
  unfold zipWith ofSize at h
  rw [bind_eq_ok] at h
  obtain ⟨q, h1, h⟩ := h
  rw [bind_eq_ok] at h
  obtain ⟨v, h2, h⟩ := h
  simp only [ok_inj] at h
  obtain ⟨h3, h4, rfl⟩ := create_ok h1
  subst h
  exact wf_mk h3 h4 (build_shape h2)

theorem assign_wf {m o m' : Mat K} (ho : WellShaped o) (h : m.assign o = .ok m') : WellShaped m' := by
  unfold assign at h
  rw [bind_eq_ok] at h
  obtain ⟨v, h2, h⟩ := h
  simp only [ok_inj] at h
  subst h
  obtain ⟨h3, h4⟩ := wf_dims ho
  exact wf_mk h3 h4 (build_shape h2)

theorem insert_wf {m m' : Mat K} {l : List K} (hm : WellShaped m) (h : m.insert l = .ok m') : WellShaped m' := by
  unfold Mat.insert at h
  split at h
  · simp at h
  · split at h
    · rw [bind_eq_ok] at h
      obtain ⟨v, h2, h⟩ := h
      simp only [ok_inj] at h
      subst h
      obtain ⟨h3, h4⟩ := wf_dims hm
      exact wf_mk h3 h4 (build_shape h2)
    · simp only [ok_inj] at h
      subst h; exact hm

omit [Elem K] in
theorem setRaw_shape {v v' : List (List K)} {i j : ℕ} {x : K} (h : setRaw v i j x = .ok v') :
    v'.map List.length = v.map List.length := by
  unfold setRaw at h
  split at h
  · simp at h
  · rename_i row hrow
    split at h
    · simp only [ok_inj] at h
      subst h
      rw [List.map_set]
      apply List.ext_getElem
      · simp
      · intro k h1 h2
        rw [List.getElem_set]
        split
        · rename_i hk; subst hk
          obtain ⟨hl, hg⟩ := List.getElem?_eq_some_iff.mp hrow
          simp [hg]
        · rfl
    · simp at h

omit [Elem K] in
theorem loop_pres {σ : Type} {step : σ → ℕ → Outcome σ} {P : σ → Prop}
    (hs : ∀ i s s', P s → step s i = .ok s' → P s') : ∀ {n : ℕ} {s s' : σ}, P s → loop step s n = .ok s' → P s'
  | 0, s, s', h, h' => by simp only [loop, ok_inj] at h'; exact h' ▸ h
  | n + 1, s, s', h, h' => by
    rw [loop, bind_eq_ok] at h'
    obtain ⟨t, h1, h2⟩ := h'
    exact hs n t s' (loop_pres hs h h1) h2

theorem fill_wf {m m' : Mat K} {x : K} (hm : WellShaped m) (h : m.fill x = .ok m') : WellShaped m' := by
  unfold fill at h
  rw [bind_eq_ok] at h
  obtain ⟨v, h2, h⟩ := h
  simp only [ok_inj] at h
  subst h
  have key : v.map List.length = m.vals.map List.length :=
    loop_pres (P := fun v => v.map List.length = m.vals.map List.length)
      (fun i s s' hs hl => loop_pres (P := fun v => v.map List.length = m.vals.map List.length)
        (fun j t t' ht hset => (setRaw_shape hset).trans ht) hs hl) rfl h2
  refine ⟨?_, ?_⟩
  · have : v.length = m.vals.length := by simpa using congrArg List.length key
    show (v.length : ℤ) = m.rows
    rw [this]; exact hm.1
  · intro row hrow
    have : row.length ∈ m.vals.map List.length := by
      rw [← key]; exact List.mem_map_of_mem hrow
    obtain ⟨r, hr, he⟩ := List.mem_map.mp this
    show (row.length : ℤ) = m.cols
    rw [← he]; exact hm.2 r hr

theorem mapAll_wf {op : K → K} {m m' : Mat K} (h : m.mapAll op = .ok m') : WellShaped m' := after_build h

theorem adjoint_wf {m m' : Mat K} (hm : WellShaped m) (h : m.adjoint = .ok m') : WellShaped m' := by
  unfold adjoint at h
  split at h
  · simp only [ok_inj] at h; subst h; exact hm
  · rw [bind_eq_ok] at h
    obtain ⟨q, h1, h⟩ := h
    obtain ⟨h3, h4, rfl⟩ := create_ok h1
    simp only at h
    split at h
    · rename_i h5
      simp only [ok_inj] at h
      subst h
      exact wf_mk h3 h4 (by simp [h5])
    · rw [bind_eq_ok] at h
      obtain ⟨v, h2, h⟩ := h
      simp only [ok_inj] at h
      subst h
      exact wf_mk h3 h4 (build_shape h2)

theorem invert_wf {m m' : Mat K} (hm : WellShaped m) (h : m.invert = .ok m') : WellShaped m' := by
  unfold invert at h
  rw [bind_eq_ok] at h
  obtain ⟨d, _, h⟩ := h
  split at h
  · simp only [ok_inj] at h; subst h; exact hm
  · rw [bind_eq_ok] at h
    obtain ⟨adj, _, h⟩ := h
    exact after_build h

theorem resize_wf {m : Mat K} {r c : ℤ} {x : K} (hm : WellShaped m) (h : r ≤ 0 ∨ 0 ≤ c) : WellShaped (m.resize r c x).1 := by
  unfold resize
  split
  · exact hm
  · split
    · omega
    · apply wf_mk (by omega) (by omega)
      refine ⟨by simp, ?_⟩
      intro row hrow
      rw [List.mem_map] at hrow
      obtain ⟨i, _, rfl⟩ := hrow
      simp

end MatLemmas

section props

variable {R K : Type} [Field R] [Elem K] {f : R → K}

/-! ### C15 Determinant -/

/-- **C15.** `determinante()` of a square matrix with at least one row is the determinant. -/
theorem C15_determinant (hf : Emb f) {n : ℕ} (M : Matrix (Fin (n + 1)) (Fin (n + 1)) R) :
    (ofMatrix f M).det = ok (f M.det) := det_ok hf M

/-- **C15.** … and 0 for every non-square matrix. -/
theorem C15_non_square {n p : ℕ} (h : n ≠ p) (M : Matrix (Fin n) (Fin p) K) : (ofMatrix id M).det = ok 0 := by
  unfold det
  rw [if_pos (by show (n : ℤ) ≠ p; omega)]

/-- **C15 (edge).** For the empty matrix the library says 0; mathematics says 1. -/
theorem C15_empty (hf : Emb f) (M : Matrix (Fin 0) (Fin 0) R) : (ofMatrix f M).det = ok (f 0) ∧ M.det = 1 := by
  refine ⟨?_, Matrix.det_isEmpty⟩
  rw [hf.zero]
  simp [det, ofMatrix, anyM, calcDet]

/-- The 2×2 matrix used in the examples. -/
def exampleM : Matrix (Fin 2) (Fin 2) ℚ := !![1, 2; 3, 4]

example : letI := fieldElem ℚ; (ofMatrix id exampleM).det = ok (-2) := by
  letI := fieldElem ℚ
  rw [C15_determinant (emb_id ℚ)]
  simp [exampleM, Matrix.det_fin_two]; norm_num

/-! ### C16 Inverse -/

/-- **C16.** With a non-zero determinant, `invert()` returns the two-sided inverse. -/
theorem C16_inverse (hf : Emb f) {n : ℕ} (M : Matrix (Fin (n + 1)) (Fin (n + 1)) R) (h : M.det ≠ 0) :
    ∃ N, (ofMatrix f M).invert = ok (ofMatrix f N) ∧ M * N = 1 ∧ N * M = 1 :=
  ⟨M⁻¹, invert_ok hf M h, M.mul_nonsing_inv (Ne.isUnit h), M.nonsing_inv_mul (Ne.isUnit h)⟩

/-- **C16.** In terms of the class: `m * m.invert()` and `m.invert() * m` are `create_idendity(n)`. -/
theorem C16_inverse_mul (hf : Emb f) {n : ℕ} (M : Matrix (Fin (n + 1)) (Fin (n + 1)) R) (h : M.det ≠ 0) :
    (do let i ← (ofMatrix f M).invert; (ofMatrix f M).mul i) = identity (K := K) (n + 1 : ℕ) ∧
    (do let i ← (ofMatrix f M).invert; i.mul (ofMatrix f M)) = identity (K := K) (n + 1 : ℕ) := by
  obtain ⟨N, h1, h2, h3⟩ := C16_inverse hf M h
  have e : ∀ A B : Matrix (Fin (n + 1)) (Fin (n + 1)) R,
      (ofMatrix f A).mul (ofMatrix f B) = ok (ofMatrix f (A * B)) := fun A B => mul_ok hf A B le_rfl le_rfl
  rw [h1, identity_ok hf]
  simp only [ok_bind]
  rw [e, e, h2, h3]
  exact ⟨rfl, rfl⟩

/-- **C16.** A matrix with determinant 0, and any non-square matrix, is returned unchanged. -/
theorem C16_singular (hf : Emb f) {n p : ℕ} (M : Matrix (Fin n) (Fin p) R) :
    (∀ N : Matrix (Fin n) (Fin n) R, N.det = 0 → (ofMatrix f N).invert = ok (ofMatrix f N)) ∧
    (n ≠ p → (ofMatrix f M).invert = ok (ofMatrix f M)) := by
  have same0 : Elem.same (0 : K) 0 := by rw [← hf.zero, hf.same]
  constructor
  · intro N hN
    have : (ofMatrix f N).det = ok 0 := by
      cases n with
      | zero => rw [(C15_empty hf N).1, hf.zero]
      | succ n => rw [det_ok hf, hN, hf.zero]
    unfold invert
    rw [this, ok_bind, if_pos same0]
  · intro h
    unfold invert
    rw [show (ofMatrix f M).det = ok 0 by
      unfold det; rw [if_pos (by show (n : ℤ) ≠ p; omega)], ok_bind, if_pos same0]

example : exampleM.det ≠ 0 := by simp [exampleM, Matrix.det_fin_two]; norm_num

/-! ### C17 Adjoint -/

/-- **C17.** `M * adjoint(M) = det(M) * I`, also for singular `M` and for every size. -/
theorem C17_adjoint (hf : Emb f) {n : ℕ} (M : Matrix (Fin n) (Fin n) R) :
    ∃ A, (ofMatrix f M).adjoint = ok (ofMatrix f A) ∧ M * A = M.det • 1 ∧ A * M = M.det • 1 :=
  ⟨M.adjugate, adjoint_ok hf M, M.mul_adjugate, M.adjugate_mul⟩

/-- **C17.** It is the classical adjugate: signed minors, transposed. -/
theorem C17_minors (hf : Emb f) {n : ℕ} (M : Matrix (Fin (n + 1)) (Fin (n + 1)) R) (i j : Fin (n + 1)) :
    ∃ A, (ofMatrix f M).adjoint = ok A ∧
      A.at' (i : ℕ) (j : ℕ) = ok (f ((-1) ^ ((j : ℕ) + i) * (M.submatrix j.succAbove i.succAbove).det)) :=
  ⟨_, adjoint_ok hf M, by rw [at_ofMatrix, Matrix.adjugate_fin_succ_eq_det_submatrix]⟩

example : letI := fieldElem ℚ; (ofMatrix id exampleM).adjoint = ok (ofMatrix id !![4, -2; -3, 1]) := by
  letI := fieldElem ℚ
  rw [adjoint_ok (emb_id ℚ), exampleM, Matrix.adjugate_fin_two_of]

/-! ### C18 Product -/

/-- **C18 (violated).** 3×2 times 2×2 loses the last row: the result is 2×2. -/
theorem C18_violated (hf : Emb f) (A : Matrix (Fin 3) (Fin 2) R) (B : Matrix (Fin 2) (Fin 2) R) :
    ∃ m, (ofMatrix f A).mul (ofMatrix f B) = ok m ∧ m.rows = 2 :=
  ⟨_, mul_ok hf A B (by norm_num) le_rfl, rfl⟩

/-- **C18 (violated).** 1×2 times 2×1 reads outside the storage. -/
theorem C18_row_times_column (A : Matrix (Fin 1) (Fin 2) K) (B : Matrix (Fin 2) (Fin 1) K) :
    (ofMatrix id A).mul (ofMatrix id B) = ub := by
  simp [mul, ofSize, create, ofMatrix, build, collect, loop, raw, at', rangeError]

/-- **C18 (partial).** With a square left factor the product is the mathematical one.  Missing: non-square left factors, see
`C18_violated`. -/
theorem C18_product_partial (hf : Emb f) {n p : ℕ} (A : Matrix (Fin n) (Fin n) R) (B : Matrix (Fin n) (Fin p) R) :
    (ofMatrix f A).mul (ofMatrix f B) = ok (ofMatrix f (A * B)) := mul_ok hf A B le_rfl le_rfl

/-- **C18 (partial).** Associativity, distributivity and units, where the code computes products. -/
theorem C18_laws_partial (hf : Emb f) {n p : ℕ} (A A' : Matrix (Fin n) (Fin n) R) (B B' : Matrix (Fin n) (Fin p) R) :
    (do let x ← (ofMatrix f A).mul (ofMatrix f A'); x.mul (ofMatrix f B)) =
      (do let y ← (ofMatrix f A').mul (ofMatrix f B); (ofMatrix f A).mul y) ∧
    (do let x ← (ofMatrix f B).add (ofMatrix f B'); (ofMatrix f A).mul x) =
      (do let x ← (ofMatrix f A).mul (ofMatrix f B); let y ← (ofMatrix f A).mul (ofMatrix f B'); x.add y) ∧
    (do let i ← identity (K := K) n; i.mul (ofMatrix f B)) = ok (ofMatrix f B) ∧
    (do let i ← identity (K := K) n; (ofMatrix f A).mul i) = ok (ofMatrix f A) := by
  have m1 : ∀ {q : ℕ} (X : Matrix (Fin n) (Fin n) R) (Y : Matrix (Fin n) (Fin q) R),
      (ofMatrix f X).mul (ofMatrix f Y) = ok (ofMatrix f (X * Y)) := fun X Y => mul_ok hf X Y le_rfl le_rfl
  have a1 : ∀ X Y : Matrix (Fin n) (Fin p) R, (ofMatrix f X).add (ofMatrix f Y) = ok (ofMatrix f (X + Y)) :=
    fun X Y => zipWith_ok (· + ·) (· + ·) (fun a b => (hf.add a b).symm) X Y
  simp only [m1, a1, ok_bind, identity_ok hf, Matrix.mul_assoc, Matrix.mul_add, Matrix.one_mul, Matrix.mul_one, and_self]

/-- **C18.** `*=` is `*` followed by assignment (any element type, any shapes that multiply). -/
theorem C18_mul_assign (hf : Emb f) {n p : ℕ} (A : Matrix (Fin n) (Fin n) R) (B : Matrix (Fin n) (Fin p) R) :
    (ofMatrix f A).mulAssign (ofMatrix f B) = ok (ofMatrix f (A * B)) := by
  unfold mulAssign
  rw [mul_ok hf A B le_rfl le_rfl, ok_bind, assign_ok]
  rfl

/-! ### C19 Matrix times vector -/

/-- **C19 (violated).** 1×2 times a 2-vector has two elements instead of one; 2×1 times a 1-vector writes outside the result. -/
theorem C19_violated (hf : Emb f) (A : Matrix (Fin 1) (Fin 2) R) (v : Fin 2 → R) (B : Matrix (Fin 2) (Fin 1) K) (x : K) :
    (ofMatrix f A).mulVec (List.ofFn fun j => f (v j)) = ok [f (A.mulVec v 0), 0] ∧ (ofMatrix id B).mulVec [x] = ub := by
  constructor
  · rw [mulVec_ok hf A v (by norm_num)]
    simp
  · simp [mulVec, ofMatrix, loop, vget, raw]

/-- **C19 (partial).** For a square matrix: the mathematical product.  Missing: non-square matrices, see `C19_violated`. -/
theorem C19_mulVec_partial (hf : Emb f) {n : ℕ} (M : Matrix (Fin n) (Fin n) R) (v : Fin n → R) :
    (ofMatrix f M).mulVec (List.ofFn fun j => f (v j)) = ok (List.ofFn fun i => f (M.mulVec v i)) := by
  rw [mulVec_ok hf M v le_rfl]
  simp

/-- **C19 (partial).** Compatible with the matrix product, and linear. -/
theorem C19_laws_partial (hf : Emb f) {n : ℕ} (A B : Matrix (Fin n) (Fin n) R) (v w : Fin n → R) (c : R) :
    (do let x ← (ofMatrix f A).mul (ofMatrix f B); x.mulVec (List.ofFn fun j => f (v j))) =
      (do let y ← (ofMatrix f B).mulVec (List.ofFn fun j => f (v j)); (ofMatrix f A).mulVec y) ∧
    (ofMatrix f A).mulVec (List.ofFn fun j => f (c * v j + w j)) =
      ok (List.ofFn fun i => f (c * A.mulVec v i + A.mulVec w i)) := by
  constructor
  · rw [C18_product_partial hf A B, ok_bind, C19_mulVec_partial hf B, ok_bind, C19_mulVec_partial hf A,
      C19_mulVec_partial hf (A * B), Matrix.mulVec_mulVec]
  · rw [C19_mulVec_partial hf A (fun j => c * v j + w j)]
    have : (fun j => c * v j + w j) = c • v + w := by funext j; simp
    rw [this, Matrix.mulVec_add, Matrix.mulVec_smul]
    rfl

/-! ### C20 Transpose -/

omit [Field R] in
/-- **C20 (violated).** For every non-square matrix with at least one row and column, `transpose()` reads outside the storage. -/
theorem C20_violated {n p : ℕ} (hn : 0 < n) (hp : 0 < p) (h : n ≠ p) (M : Matrix (Fin n) (Fin p) R) (f : R → K) :
    (ofMatrix f M).transpose = ub := by
  have e : ∀ i j : ℕ, i < n → j < p → (j < n ∧ i < p) → ∃ x, raw (ofMatrix f M).vals (j : ℕ) (i : ℕ) = ok x :=
    fun i j _ _ hh => ⟨_, raw_ofMatrix' f M j i hh.1 hh.2⟩
  have bad : ∀ i j : ℕ, ¬ (j < n ∧ i < p) → raw (ofMatrix f M).vals (j : ℕ) (i : ℕ) = ub := by
    intro i j hh
    rw [raw_nat]
    by_cases hj : j < n
    · have : ¬ i < p := fun hi => hh ⟨hj, hi⟩
      simp [ofMatrix, hj, this]
    · simp [ofMatrix, hj]
  unfold transpose ofSize
  show (create (n : ℤ) (p : ℤ) (0:K) >>= _) = _
  rw [create_nat, ok_bind]
  show (build ((n : ℤ).toNat) ((p : ℤ).toNat) _ >>= _) = _
  simp only [Int.toNat_natCast]
  have hb : build n p (fun i j => raw (ofMatrix f M).vals (j : ℕ) (i : ℕ)) = ub := by
    rcases lt_or_gt_of_ne h with hlt | hgt
    · -- the first row already reads row n
      have h0 : collect (fun j => raw (ofMatrix f M).vals (j : ℕ) (0 : ℕ)) p = ub :=
        (collect_fail (k := n) hlt (fun j hj => e 0 j hn (by omega) ⟨hj, hp⟩)
          (by rw [bad 0 n (by omega)]; simp)).2 (bad 0 n (by omega))
      exact (collect_fail (k := 0) hn (by simp) (by rw [h0]; simp)).2 h0
    · have h0 : collect (fun j => raw (ofMatrix f M).vals (j : ℕ) (p : ℕ)) p = ub :=
        (collect_fail (k := 0) hp (by simp) (by rw [bad p 0 (by omega)]; simp)).2 (bad p 0 (by omega))
      refine (collect_fail (k := p) hgt ?_ (by rw [h0]; simp)).2 h0
      intro i hi
      refine ⟨_, collect_ok (fun j : Fin p => f (M ⟨j, by omega⟩ ⟨i, hi⟩)) fun j => ?_⟩
      exact raw_ofMatrix' f M j i (by omega) hi
  rw [hb]; rfl

omit [Field R] in
/-- **C20 (partial).** For square matrices it swaps rows and columns and is its own inverse.  Missing: non-square, see `C20_violated`. -/
theorem C20_transpose_partial {n : ℕ} (M : Matrix (Fin n) (Fin n) R) (f : R → K) :
    (∃ T, (ofMatrix f M).transpose = ok T ∧ ∀ i j : Fin n, T.at' (i : ℕ) (j : ℕ) = (ofMatrix f M).at' (j : ℕ) (i : ℕ)) ∧
    (do let t ← (ofMatrix f M).transpose; t.transpose) = ok (ofMatrix f M) := by
  refine ⟨⟨_, transpose_ok M, fun i j => by rw [at_ofMatrix, at_ofMatrix]; rfl⟩, ?_⟩
  rw [transpose_ok, ok_bind, transpose_ok, Matrix.transpose_transpose]

/-! ### C21 Element access -/

omit [Field R] [Elem K] in
/-- **C21 (violated).** A negative index, and an index past the matrix that is larger than the error message is long, are undefined behaviour. -/
theorem C21_violated {n p : ℕ} (M : Matrix (Fin n) (Fin p) R) (f : R → K) (i j : ℤ) :
    (i < 0 → 0 ≤ j → j < p → (ofMatrix f M).at' i j = ub) ∧ (n ≤ i → 38 < i → (ofMatrix f M).at' i j = ub) ∧
    (0 ≤ i → i < n → p ≤ j → 41 < j → (ofMatrix f M).at' i j = ub) := by
  refine ⟨?_, ?_, ?_⟩
  · intro h h1 h2
    unfold at'
    rw [if_neg (by show ¬ ((n:ℤ) ≤ i); omega), if_neg (by show ¬ ((p:ℤ) ≤ j); omega), raw, if_pos (Or.inl h)]
  · intro h h1
    unfold at'
    rw [if_pos (by show (n:ℤ) ≤ i; omega), rangeError, if_pos (by omega)]
  · intro h h1 h2 h3
    unfold at'
    rw [if_neg (by show ¬ ((n:ℤ) ≤ i); omega), if_pos (by show (p:ℤ) ≤ j; omega), rangeError, if_pos (by omega)]

omit [Field R] [Elem K] in
/-- **C21 (partial).** For row indices 0…38 and column indices 0…41 access returns the element or, exactly when the index is outside the
matrix, throws `std::out_of_range`.  Missing: the other indices, see `C21_violated`. -/
theorem C21_access_partial {n p : ℕ} (M : Matrix (Fin n) (Fin p) R) (f : R → K) (i j : ℕ) (hi : i ≤ 38) (hj : j ≤ 41) :
    (ofMatrix f M).at' i j = if h : i < n ∧ j < p then ok (f (M ⟨i, h.1⟩ ⟨j, h.2⟩)) else .throw ⟨.outOfRange, false⟩ := by
  by_cases h : i < n ∧ j < p
  · rw [dif_pos h]; exact at_ofMatrix f M ⟨i, h.1⟩ ⟨j, h.2⟩
  · rw [dif_neg h]
    unfold at'
    by_cases h1 : i < n
    · rw [if_neg (by show ¬ ((n:ℤ) ≤ i); omega), if_pos (by show (p:ℤ) ≤ j; omega), rangeError, if_neg (by omega)]
    · rw [if_pos (by show (n:ℤ) ≤ i; omega), rangeError, if_neg (by omega)]

omit [Field R] [Elem K] in
/-- **C21.** Inside the matrix access always returns the element, however large the matrix. -/
theorem C21_inside {n p : ℕ} (M : Matrix (Fin n) (Fin p) R) (f : R → K) (i : Fin n) (j : Fin p) :
    (ofMatrix f M).at' (i : ℕ) (j : ℕ) = ok (f (M i j)) := at_ofMatrix f M i j

/-! ### C22 Filling from a list -/

omit [Field R] in
/-- **C22 (violated).** 2×3: position (1,0) receives element 2 instead of 3.  2×1: reads outside the list. -/
theorem C22_violated (a b c d e g : K) :
    (∃ m, ofList 2 3 [a, b, c, d, e, g] = ok m ∧ m.at' 1 0 = ok c) ∧ ofList 2 1 [a, b] = ub := by
  constructor
  · refine ⟨⟨2, 3, [[a, b, c], [c, d, e]]⟩, ?_, ?_⟩
    · simp [ofList, ofSize, create, Mat.insert, build, collect]
    · simp [at', raw]
  · simp [ofList, ofSize, create, Mat.insert, build, collect]

/-- **C22 (partial).** For square matrices and single rows, element `i*columns+j` of a list of the right length goes to (i,j).  Missing: other
shapes, see `C22_violated`. -/
theorem C22_insert_partial {n p : ℕ} (M : Matrix (Fin n) (Fin p) K) (l : List K) (hl : l.length = n * p) (hs : n * p < 2 ^ 31)
    (h : n = p ∨ n ≤ 1) :
    ∃ N : Matrix (Fin n) (Fin p) K, (ofMatrix id M).insert l = ok (ofMatrix id N) ∧
      ∀ (i : Fin n) (j : Fin p), l[(i : ℕ) * p + j]? = some (N i j) := by
  have hlt : ∀ (i : Fin n) (j : Fin p), (i : ℕ) * p + j < l.length := by
    intro i j
    rw [hl]
    have h1 := i.2; have h2 := j.2
    calc (i : ℕ) * p + j < i * p + p := by omega
      _ = (i + 1) * p := by ring
      _ ≤ n * p := Nat.mul_le_mul_right p h1
  have hb : ∀ (i : Fin n) (j : Fin p), (i : ℕ) * n + j = i * p + j := by
    intro i j
    rcases h with h | h
    · subst h; rfl
    · have : (i : ℕ) = 0 := by have := i.2; omega
      rw [this]; simp
  refine ⟨Matrix.of fun i j => l[(i : ℕ) * p + j]'(hlt i j), ?_, fun i j => List.getElem?_eq_getElem (hlt i j)⟩
  unfold Mat.insert
  show (if (n : ℤ) * p < -(2 ^ 31) ∨ 2 ^ 31 ≤ (n : ℤ) * p then ub else if (l.length : ℤ) = (n : ℤ) * p then
      (build (n : ℤ).toNat (p : ℤ).toNat _ >>= _) else _) = _
  have hs' : (n : ℤ) * p < 2 ^ 31 := by exact_mod_cast hs
  have hpos : (0 : ℤ) ≤ (n : ℤ) * p := by positivity
  rw [if_neg (by omega), if_pos (by rw [hl]; push_cast; ring)]
  simp only [Int.toNat_natCast]
  rw [build_ok (fun (i : Fin n) (j : Fin p) => l[(i : ℕ) * p + j]'(hlt i j))]
  · rfl
  · intro i j
    show (match l[(i : ℕ) * (n : ℤ).toNat + j]? with
      | none => ub
      | some x => ok x) = _
    simp only [Int.toNat_natCast]
    rw [hb, List.getElem?_eq_getElem (hlt i j)]

/-- **C22.** A list of any other length leaves the matrix unchanged. -/
theorem C22_wrong_length {n p : ℕ} (M : Matrix (Fin n) (Fin p) K) (l : List K) (hl : l.length ≠ n * p) (hs : n * p < 2 ^ 31) :
    (ofMatrix id M).insert l = ok (ofMatrix id M) := by
  unfold Mat.insert
  have hs' : (n : ℤ) * p < 2 ^ 31 := by exact_mod_cast hs
  have hpos : (0 : ℤ) ≤ (n : ℤ) * p := by positivity
  rw [if_neg (by show ¬ ((n : ℤ) * p < _ ∨ _ ≤ (n : ℤ) * p); omega),
    if_neg (by show (l.length : ℤ) ≠ (n : ℤ) * p; exact_mod_cast hl)]

example : ([1, 2, 3, 4] : List ℚ).length = 2 * 2 := rfl

/-! ### C23 Resize -/

/-- **C23.** `resize` keeps the common part and sets every other element to the fill value (any element type). -/
theorem C23_resize {n p : ℕ} (M : Matrix (Fin n) (Fin p) K) (r c : ℕ) (x : K) :
    (ofMatrix id M).resize r c x =
      (ofMatrix id (Matrix.of fun (i : Fin r) (j : Fin c) => if h : (i : ℕ) < n ∧ (j : ℕ) < p then M ⟨i, h.1⟩ ⟨j, h.2⟩ else x), ok ()) := by
  unfold resize
  rw [if_neg (by omega), if_neg (by omega)]
  simp only [Int.toNat_natCast]
  congr 1
  unfold ofMatrix
  congr 1
  apply List.ext_getElem
  · simp
  · intro i h1 h2
    simp only [List.getElem_map, List.getElem_range, List.getElem_ofFn, id]
    apply List.ext_getElem
    · simp
    · intro j h3 h4
      simp only [List.getElem_map, List.getElem_range, List.getElem_ofFn, Matrix.of_apply]
      by_cases h : i < n ∧ j < p
      · rw [dif_pos h, if_neg (by omega)]
        simp [h.1, h.2]
      · rw [dif_neg h, if_pos (by omega)]

example : ∃ M : Matrix (Fin 2) (Fin 2) ℚ, M 0 0 ≠ M 1 1 := ⟨exampleM, by simp [exampleM]⟩

/-! ### C24 Elementwise arithmetic -/

/-- **C24.** Sum and difference of equal shapes, and the operations with a number, act elementwise (any element type, any rounding). -/
theorem C24_elementwise {n p : ℕ} (A B : Matrix (Fin n) (Fin p) K) (x : K) :
    (ofMatrix id A).add (ofMatrix id B) = ok (ofMatrix id (Matrix.of fun i j => A i j + B i j)) ∧
    (ofMatrix id A).sub (ofMatrix id B) = ok (ofMatrix id (Matrix.of fun i j => A i j - B i j)) ∧
    (ofMatrix id A).addScalar x = ok (ofMatrix id (Matrix.of fun i j => A i j + x)) ∧
    (ofMatrix id A).subScalar x = ok (ofMatrix id (Matrix.of fun i j => A i j - x)) ∧
    (ofMatrix id A).mulScalar x = ok (ofMatrix id (Matrix.of fun i j => A i j * x)) ∧
    (ofMatrix id A).divScalar x = ok (ofMatrix id (Matrix.of fun i j => A i j / x)) ∧
    (ofMatrix id A).addAssign (ofMatrix id B) = ok (ofMatrix id (Matrix.of fun i j => A i j + B i j)) ∧
    (ofMatrix id A).subAssign (ofMatrix id B) = ok (ofMatrix id (Matrix.of fun i j => A i j - B i j)) := by
  have h1 := zipWith_ok (f := (id : K → K)) (· + ·) (· + ·) (fun _ _ => rfl) A B
  have h2 := zipWith_ok (f := (id : K → K)) (· - ·) (· - ·) (fun _ _ => rfl) A B
  refine ⟨h1, h2, mapAll_ok (f := id) (· + x) (· + x) A fun _ _ => rfl, mapAll_ok (f := id) (· - x) (· - x) A fun _ _ => rfl,
    mapAll_ok (f := id) (· * x) (· * x) A fun _ _ => rfl, mapAll_ok (f := id) (· / x) (· / x) A fun _ _ => rfl, ?_, ?_⟩
  · unfold addAssign add
    rw [h1, ok_bind, assign_ok]
  · unfold subAssign sub
    rw [h2, ok_bind, assign_ok]

/-- **C24.** Adding and then subtracting the same matrix is the identity (exact arithmetic). -/
theorem C24_add_sub (hf : Emb f) {n p : ℕ} (A B : Matrix (Fin n) (Fin p) R) :
    (do let s ← (ofMatrix f A).add (ofMatrix f B); s.sub (ofMatrix f B)) = ok (ofMatrix f A) := by
  unfold add sub
  rw [zipWith_ok (· + ·) (· + ·) (fun a b => (hf.add a b).symm) A B, ok_bind,
    zipWith_ok (· - ·) (· - ·) (fun a b => (hf.sub a b).symm)]
  congr 2
  ext i j
  simp

/-- **C24.** Adding or subtracting a matrix with fewer rows or columns throws `std::out_of_range` — as long as the
smaller one has at most 38 rows and 41 columns. -/
theorem C24_smaller_partial {n p n' p' : ℕ} (op : K → K → K) (A : Matrix (Fin n) (Fin p) K) (B : Matrix (Fin n') (Fin p') K)
    (hn : 0 < n) (hp : 0 < p) (h : n' < n ∨ p' < p) (h1 : n' ≤ 38) (h2 : p' ≤ 41) :
    (ofMatrix id A).zipWith op (ofMatrix id B) = .throw ⟨.outOfRange, false⟩ := by
  unfold zipWith ofSize
  show (create (n : ℤ) (p : ℤ) (0:K) >>= _) = _
  rw [create_nat, ok_bind]
  show (build ((n : ℤ).toNat) ((p : ℤ).toNat) _ >>= _) = _
  simp only [Int.toNat_natCast]
  set cell : ℕ → ℕ → Outcome K := fun i j => (do
    let a ← raw (ofMatrix id A).vals (i : ℕ) (j : ℕ)
    let b ← (ofMatrix id B).at' (i : ℕ) (j : ℕ)
    ok (op a b)) with hcell
  have good : ∀ i j : ℕ, i < n → j < p → i < n' → j < p' → ∃ x, cell i j = ok x := by
    intro i j hi hj hi' hj'
    refine ⟨op (A ⟨i, hi⟩ ⟨j, hj⟩) (B ⟨i, hi'⟩ ⟨j, hj'⟩), ?_⟩
    simp only [hcell]
    rw [raw_ofMatrix' id A i j hi hj, ok_bind, C21_access_partial B id i j (by omega) (by omega), dif_pos ⟨hi', hj'⟩, ok_bind]
    rfl
  have bad : ∀ i j : ℕ, i < n → j < p → i ≤ 38 → j ≤ 41 → ¬ (i < n' ∧ j < p') → cell i j = .throw ⟨.outOfRange, false⟩ := by
    intro i j hi hj hi' hj' hh
    simp only [hcell]
    rw [raw_ofMatrix' id A i j hi hj, ok_bind, C21_access_partial B id i j hi' hj', dif_neg hh, throw_bind]
  have hb : build n p cell = .throw ⟨.outOfRange, false⟩ := by
    by_cases h0 : n' = 0
    · have hr : collect (cell 0) p = .throw ⟨.outOfRange, false⟩ :=
        (collect_fail (k := 0) hp (by simp) (by rw [bad 0 0 hn hp (by omega) (by omega) (by omega)]; simp)).1 _
          (bad 0 0 hn hp (by omega) (by omega) (by omega))
      exact (collect_fail (k := 0) hn (by simp) (by rw [hr]; simp)).1 _ hr
    · by_cases hp' : p' < p
      · have hr : collect (cell 0) p = .throw ⟨.outOfRange, false⟩ :=
          (collect_fail (k := p') hp' (fun j hj => good 0 j hn (by omega) (by omega) hj)
            (by rw [bad 0 p' hn hp' (by omega) (by omega) (by omega)]; simp)).1 _
            (bad 0 p' hn hp' (by omega) (by omega) (by omega))
        exact (collect_fail (k := 0) hn (by simp) (by rw [hr]; simp)).1 _ hr
      · have hn' : n' < n := by omega
        have hr : collect (cell n') p = .throw ⟨.outOfRange, false⟩ :=
          (collect_fail (k := 0) hp (by simp) (by rw [bad n' 0 hn' hp (by omega) (by omega) (by omega)]; simp)).1 _
            (bad n' 0 hn' hp (by omega) (by omega) (by omega))
        refine (collect_fail (k := n') hn' ?_ (by rw [hr]; simp)).1 _ hr
        intro i hi
        choose g hg using fun j : Fin p => good i j (by omega) j.2 hi (by omega)
        exact ⟨_, collect_ok g hg⟩
  rw [hb]; rfl

/-- **C24 (violated).** 40×1 added to 39×1 … : a matrix of one column with more than 39 rows plus one of exactly 39 rows is undefined
behaviour instead of an exception. -/
theorem C24_smaller_violated {n : ℕ} (A : Matrix (Fin n) (Fin 1) K) (B : Matrix (Fin 39) (Fin 1) K) (hn : 39 < n) :
    (ofMatrix id A).add (ofMatrix id B) = ub := by
  unfold add zipWith ofSize
  show (create (n : ℤ) ((1 : ℕ) : ℤ) (0:K) >>= _) = _
  rw [create_nat, ok_bind]
  show (build ((n : ℤ).toNat) (((1 : ℕ) : ℤ).toNat) _ >>= _) = _
  simp only [Int.toNat_natCast]
  set cell : ℕ → ℕ → Outcome K := fun i j => (do
    let a ← raw (ofMatrix id A).vals (i : ℕ) (j : ℕ)
    let b ← (ofMatrix id B).at' (i : ℕ) (j : ℕ)
    ok (a + b)) with hcell
  have hb : build n 1 cell = ub := by
    have hc : cell 39 0 = ub := by
      simp only [hcell]
      rw [raw_ofMatrix' id A 39 0 hn (by omega), ok_bind, (C21_violated B id (39 : ℕ) (0 : ℕ)).2.1 (by norm_num) (by norm_num)]
      rfl
    have hr : collect (cell 39) 1 = ub := by simp [collect, hc]
    refine (collect_fail (k := 39) hn ?_ (by rw [hr]; simp)).2 hr
    intro i hi
    refine ⟨_, collect_ok (fun j : Fin 1 => A ⟨i, by omega⟩ j + B ⟨i, hi⟩ j) ?_⟩
    intro j
    simp only [hcell]
    rw [raw_ofMatrix' id A i j (by omega) j.2, ok_bind, at_ofMatrix id B ⟨i, hi⟩ j, ok_bind]
    rfl
  rw [hb]; rfl

/-! ### C25 Shape invariant -/

/-- **C25 (violated).** `resize(2,-1)` on a 1×1 matrix throws, but leaves two rows of storage in a matrix that reports one. -/
theorem C25_violated (a x : K) :
    ∃ m, m = ofMatrix id (Matrix.of fun (_ _ : Fin 1) => a) ∧ History (fun _ _ => True) m ∧
      (m.resize 2 (-1) x).2 = .throw ⟨.lengthError, false⟩ ∧ History (fun _ _ => True) (m.resize 2 (-1) x).1 ∧
      ¬ WellShaped (m.resize 2 (-1) x).1 := by
  have hm : History (fun _ _ => True) (ofMatrix id (Matrix.of fun (_ _ : Fin 1) => a)) := .create (create_nat 1 1 a)
  refine ⟨_, rfl, hm, ?_, .resize hm trivial, ?_⟩
  · simp [resize, lengthError]
  · rintro ⟨h1, _⟩
    simp [resize, ofMatrix, vresize] at h1

/-- **C25 (partial).** In every history whose `resize` calls have a non-negative column count (or no rows), every matrix has the shape it
reports.  Missing: `resize` with a negative column count, see `C25_violated`. -/
theorem C25_shape_partial (m : Mat K) (h : History (fun r c => r ≤ 0 ∨ 0 ≤ c) m) : WellShaped m := by
  induction h with
  | empty => exact ⟨rfl, by simp [Mat.empty]⟩
  | create h => exact MatLemmas.create_wf h
  | ofSize h => exact MatLemmas.create_wf h
  | ofSquare h => exact MatLemmas.create_wf h
  | ofList h =>
    unfold ofList at h
    rw [bind_eq_ok] at h
    obtain ⟨q, h1, h2⟩ := h
    exact MatLemmas.insert_wf (MatLemmas.create_wf h1) h2
  | ofSquareList h =>
    unfold ofSquareList at h
    rw [bind_eq_ok] at h
    obtain ⟨q, h1, h2⟩ := h
    exact MatLemmas.insert_wf (MatLemmas.create_wf h1) h2
  | identity h => exact MatLemmas.after_build h
  | copy _ ih => exact ih
  | assign _ _ h _ ih => exact MatLemmas.assign_wf ih h
  | add _ _ h _ _ => exact MatLemmas.zipWith_wf h
  | sub _ _ h _ _ => exact MatLemmas.zipWith_wf h
  | mul _ _ h _ _ => exact MatLemmas.after_build h
  | addAssign _ _ h _ _ =>
    unfold addAssign at h
    rw [bind_eq_ok] at h
    obtain ⟨q, h1, h2⟩ := h
    exact MatLemmas.assign_wf (MatLemmas.zipWith_wf h1) h2
  | subAssign _ _ h _ _ =>
    unfold subAssign at h
    rw [bind_eq_ok] at h
    obtain ⟨q, h1, h2⟩ := h
    exact MatLemmas.assign_wf (MatLemmas.zipWith_wf h1) h2
  | mulAssign _ _ h _ _ =>
    unfold mulAssign at h
    rw [bind_eq_ok] at h
    obtain ⟨q, h1, h2⟩ := h
    exact MatLemmas.assign_wf (MatLemmas.after_build h1) h2
  | addScalar _ h _ => exact MatLemmas.mapAll_wf h
  | subScalar _ h _ => exact MatLemmas.mapAll_wf h
  | mulScalar _ h _ => exact MatLemmas.mapAll_wf h
  | divScalar _ h _ => exact MatLemmas.mapAll_wf h
  | transpose _ h _ => exact MatLemmas.after_build h
  | adjoint _ h ih => exact MatLemmas.adjoint_wf ih h
  | invert _ h ih => exact MatLemmas.invert_wf ih h
  | fill _ h ih => exact MatLemmas.fill_wf ih h
  | insert _ h ih => exact MatLemmas.insert_wf ih h
  | resize _ h ih => exact MatLemmas.resize_wf ih h

omit [Elem K] in
/-- **C25.** A well-shaped matrix with a non-negative column count is the image of a mathematical matrix: the theorems above speak about
every matrix such a history produces. -/
theorem C25_all_matrices (m : Mat K) (h : WellShaped m) (hc : 0 ≤ m.cols) :
    ∃ (n p : ℕ) (M : Matrix (Fin n) (Fin p) K), m = ofMatrix id M := by
  obtain ⟨r, c, v⟩ := m
  obtain ⟨h1, h2⟩ := h
  simp only at h1 h2 hc
  obtain ⟨p, rfl⟩ := Int.eq_ofNat_of_zero_le hc
  subst h1
  have hrow : ∀ i : Fin v.length, (v[i]).length = p := fun i => by
    have := h2 (v[i]) (List.getElem_mem _)
    exact_mod_cast this
  refine ⟨v.length, p, Matrix.of fun i j => (v[i])[j]'(by rw [hrow i]; exact j.2), ?_⟩
  unfold ofMatrix
  congr 1
  apply List.ext_getElem
  · simp
  · intro i h3 h4
    simp only [List.getElem_ofFn]
    apply List.ext_getElem
    · simpa using hrow ⟨i, h3⟩
    · intro j h5 h6
      simp

/-- C25 is not vacuous: a resize that both grows and shrinks is a legal history. -/
example : letI := fieldElem ℚ; History (fun r c => r ≤ 0 ∨ 0 ≤ c) (((ofMatrix id exampleM).resize 3 1 7).1) := by
  letI := fieldElem ℚ
  exact .resize (.ofSquareList (n := 2) (l := [1, 2, 3, 4]) (by
    simp [ofSquareList, ofSquare, create, Mat.insert, build, collect, ofMatrix, exampleM])) (Or.inr (by norm_num))

end props
