import Verif.Matrix
import Mathlib.LinearAlgebra.Matrix.Adjugate
import Mathlib.LinearAlgebra.Matrix.NonsingularInverse
import Mathlib.Data.List.OfFn
import Mathlib.Algebra.BigOperators.Fin
import Mathlib.Tactic.Ring

/-!
# Lemmas about the matrix model
-/

open Outcome

namespace Mat

/-- The `matrix<T>` object that stores the mathematical matrix `M`, embedded by `f`. -/
def ofMatrix {R K : Type} {n p : ℕ} (f : R → K) (M : Matrix (Fin n) (Fin p) R) : Mat K :=
  ⟨n, p, List.ofFn fun i => List.ofFn fun j => f (M i j)⟩

/-- `f` carries exact arithmetic of a field into the element type. -/
structure Emb {R K : Type} [Field R] [Elem K] (f : R → K) : Prop where
  zero : f 0 = 0
  one : f 1 = 1
  neg1 : f (-1) = Elem.neg1
  add : ∀ a b, f (a + b) = f a + f b
  sub : ∀ a b, f (a - b) = f a - f b
  mul : ∀ a b, f (a * b) = f a * f b
  div : ∀ a b, b ≠ 0 → f (a / b) = f a / f b
  same : ∀ a b, Elem.same (f a) (f b) ↔ a = b

/-- Any field is an element type. -/
@[reducible] def fieldElem (R : Type) [Field R] : Elem R where
  neg1 := -1
  same := (· = ·)

theorem emb_id (R : Type) [Field R] : letI := fieldElem R; Emb (id : R → R) :=
  letI := fieldElem R
  { zero := rfl, one := rfl, neg1 := rfl, add := fun _ _ => rfl, sub := fun _ _ => rfl, mul := fun _ _ => rfl,
    div := fun _ _ _ => rfl, same := fun _ _ => Iff.rfl }

/-- Finite floats in exact arithmetic. -/
theorem emb_fin [FloatModel] [ExactModel] : Emb (Fl.fin : ℝ → Fl) where
  zero := Fl.zero_def.symm
  one := Fl.one_def.symm
  neg1 := rfl
  add a b := (Fl.add_exact a b).symm
  sub a b := (Fl.sub_exact a b).symm
  mul a b := (Fl.mul_exact a b).symm
  div a b h := (Fl.div_exact a b h).symm
  same _ _ := Fl.feq_fin

/-! ### Loops -/

theorem collect_ok {α : Type} {f : Nat → Outcome α} : ∀ {n : Nat} (g : Fin n → α),
    (∀ i : Fin n, f i = ok (g i)) → collect f n = ok (List.ofFn g)
  | 0, g, _ => by simp [collect]
  | n + 1, g, h => by
    have ih := collect_ok (f := f) (fun i : Fin n => g i.castSucc) (fun i => h i.castSucc)
    have hl := h (Fin.last n)
    simp only [Fin.val_last] at hl
    simp only [collect, ih, ok_bind, hl, List.ofFn_succ_last]

theorem build_ok {K : Type} {r c : Nat} {f : Nat → Nat → Outcome K} (g : Fin r → Fin c → K)
    (h : ∀ (i : Fin r) (j : Fin c), f i j = ok (g i j)) :
    build r c f = ok (List.ofFn fun i => List.ofFn fun j => g i j) :=
  collect_ok _ fun i => collect_ok _ fun j => h i j

theorem loop_inv {σ : Type} {step : σ → Nat → Outcome σ} {s : σ} (P : Nat → σ → Prop) (h0 : P 0 s) (n : Nat)
    (hs : ∀ i s', i < n → P i s' → ∃ s'', step s' i = ok s'' ∧ P (i + 1) s'') :
    ∃ s', loop step s n = ok s' ∧ P n s' := by
  induction n with
  | zero => exact ⟨s, rfl, h0⟩
  | succ n ih =>
    obtain ⟨s', h1, h2⟩ := ih fun i s' hi => hs i s' (by omega)
    obtain ⟨s'', h3, h4⟩ := hs n s' (by omega) h2
    exact ⟨s'', by simp [loop, h1, h3], h4⟩

theorem loop_sum {R K : Type} [Field R] [Elem K] {f : R → K} (hf : Emb f) {step : K → Nat → Outcome K} (n : Nat)
    (t : Fin n → R) (hs : ∀ (acc : R) (i : Fin n), step (f acc) i = ok (f (acc + t i))) :
    loop step 0 n = ok (f (∑ i, t i)) := by
  induction n with
  | zero => simp [loop, hf.zero]
  | succ n ih =>
    rw [loop, ih (fun i => t i.castSucc) (fun acc i => hs acc i.castSucc), Fin.sum_univ_castSucc]
    have := hs (∑ i : Fin n, t i.castSucc) (Fin.last n)
    simpa using this

theorem allM_ok {α : Type} {p : α → Outcome Bool} {q : α → Prop} [DecidablePred q] (l : List α)
    (h : ∀ a ∈ l, p a = ok (decide (q a))) : allM p l = ok (decide (∀ a ∈ l, q a)) := by
  induction l with
  | nil => simp [allM]
  | cons a l ih =>
    rw [allM, h a (by simp), ok_bind]
    by_cases hq : q a
    · simp [hq, ih fun b hb => h b (by simp [hb])]
    · simp [hq]

theorem anyM_ok {α : Type} {p : α → Outcome Bool} {q : α → Prop} [DecidablePred q] (l : List α)
    (h : ∀ a ∈ l, p a = ok (decide (q a))) : anyM p l = ok (decide (∃ a ∈ l, q a)) := by
  induction l with
  | nil => simp [anyM]
  | cons a l ih =>
    rw [anyM, h a (by simp), ok_bind]
    by_cases hq : q a
    · simp [hq]
    · simp [hq, ih fun b hb => h b (by simp [hb])]

/-! ### Access -/

theorem raw_nat {K : Type} (v : List (List K)) (i j : Nat) :
    raw v i j = match v[i]? with
      | none => ub
      | some row => match row[j]? with
        | none => ub
        | some x => ok x := by
  unfold raw
  rw [if_neg (by omega)]
  simp only [Int.toNat_natCast]
  rfl

theorem raw_ofMatrix {R K : Type} {n p : ℕ} (f : R → K) (M : Matrix (Fin n) (Fin p) R) (i : Fin n) (j : Fin p) :
    raw (ofMatrix f M).vals (i : ℕ) (j : ℕ) = ok (f (M i j)) := by
  rw [raw_nat]
  simp [ofMatrix]

theorem raw_ofMatrix' {R K : Type} {n p : ℕ} (f : R → K) (M : Matrix (Fin n) (Fin p) R) (i j : ℕ) (hi : i < n) (hj : j < p) :
    raw (ofMatrix f M).vals i j = ok (f (M ⟨i, hi⟩ ⟨j, hj⟩)) := raw_ofMatrix f M ⟨i, hi⟩ ⟨j, hj⟩

theorem at_ofMatrix {R K : Type} {n p : ℕ} (f : R → K) (M : Matrix (Fin n) (Fin p) R) (i : Fin n) (j : Fin p) :
    (ofMatrix f M).at' (i : ℕ) (j : ℕ) = ok (f (M i j)) := by
  unfold at'
  rw [if_neg, if_neg, raw_ofMatrix]
  · show ¬ ((p:ℤ) ≤ j); have := j.2; omega
  · show ¬ ((n:ℤ) ≤ i); have := i.2; omega

theorem setRaw_ok {K : Type} {v : List (List K)} {i j : Nat} {y : K} (x : K) (h : raw v i j = ok y) :
    ∃ v', setRaw v i j x = ok v' ∧
      ∀ a b : Nat, raw v' a b = if a = i ∧ b = j then ok x else raw v a b := by
  rw [raw_nat] at h
  cases hr : v[i]? with
  | none => simp [hr] at h
  | some row =>
    simp only [hr] at h
    have hj : j < row.length := by
      by_contra hj
      rw [List.getElem?_eq_none (by omega)] at h
      simp at h
    have hi : i < v.length := by
      by_contra hi
      rw [List.getElem?_eq_none (by omega)] at hr
      simp at hr
    refine ⟨v.set i (row.set j x), by simp [setRaw, hr, hj], ?_⟩
    intro a b
    rw [raw_nat, raw_nat, List.getElem?_set]
    by_cases ha : i = a
    · subst ha
      simp only [if_true, hi, true_and]
      rw [hr]
      simp only [List.getElem?_set]
      by_cases hb : j = b
      · subst hb; simp [hj]
      · simp [hb, Ne.symm hb]
    · simp [ha, Ne.symm ha]

/-! ### Construction -/

theorem create_nat {K : Type} (r c : ℕ) (x : K) :
    create (r : ℤ) (c : ℤ) x = ok (ofMatrix id (Matrix.of fun (_ : Fin r) (_ : Fin c) => x)) := by
  unfold create ofMatrix
  rw [if_neg (by omega), if_neg (by omega)]
  simp [List.ofFn_const]

/-! ### Cofactors -/

/-- Index in the original of index `i` after row or column `r` was removed. -/
def skip (r i : Nat) : Nat := if i < r then i else i + 1

theorem cof_inner {K : Type} [Elem K] (mat : List (List K)) (cfRow cfCol k row i0 : Nat) (res : List (List K))
    (hrow : row ≠ cfRow) (hk : 0 < k) (hc : cfCol ≤ k) (hi0 : i0 < k)
    (hm : ∀ b, b ≤ k → ∃ x, raw mat row b = ok x)
    (hres : ∀ a b : Nat, a < k → b < k → ∃ x, raw res a b = ok x) :
    ∃ res', loop (cofStep mat cfRow cfCol (k + 1) row) ⟨res, i0, 0⟩ (k + 1) = ok ⟨res', i0 + 1, 0⟩ ∧
      ∀ a b : Nat, raw res' a b = if a = i0 ∧ b < k then raw mat row (skip cfCol b) else raw res a b := by
  have key := loop_inv (step := cofStep mat cfRow cfCol (k + 1) row) (s := ⟨res, i0, 0⟩)
    (fun c s => ∃ w, (w = if cfCol < c then c - 1 else c) ∧ w ≤ k ∧
      (if w = k then s.i = i0 + 1 ∧ s.j = 0 else s.i = i0 ∧ s.j = w) ∧
      ∀ a b : Nat, raw s.res a b = if a = i0 ∧ b < w then raw mat row (skip cfCol b) else raw res a b)
    ⟨0, by simp, by omega, by simp [hk.ne], by simp⟩ (k + 1) ?_
  · obtain ⟨s, h1, w, hw, hwk, h2, h3⟩ := key
    have : w = k := by rw [hw, if_pos (by omega)]; omega
    subst this
    simp only [if_true] at h2
    refine ⟨s.res, ?_, h3⟩
    rw [h1]
    obtain ⟨r, i, j⟩ := s
    simp only at h2
    rw [h2.1, h2.2]
  · rintro c ⟨r, i, j⟩ hck ⟨w, hw, hwk, h2, h3⟩
    unfold cofStep
    by_cases hcc : c = cfCol
    · rw [if_neg (by tauto)]
      refine ⟨_, rfl, w, ?_, hwk, h2, h3⟩
      rw [hw, if_neg (by omega), if_pos (by omega)]; omega
    · rw [if_pos ⟨hrow, hcc⟩]
      have hwlt : w < k := by
        rw [hw]; split <;> omega
      rw [if_neg (by omega)] at h2
      simp only at h2 h3
      obtain ⟨h2i, h2j⟩ := h2
      subst h2i; subst h2j
      obtain ⟨x, hx⟩ := hm c (by omega)
      have hpos : ∃ y, raw r i j = ok y := by
        rw [h3, if_neg (by omega)]; exact hres _ _ hi0 hwlt
      obtain ⟨y, hy⟩ := hpos
      obtain ⟨v', hv', hv⟩ := setRaw_ok x hy
      have hskip : skip cfCol j = c := by
        unfold skip
        by_cases h : cfCol < c
        · rw [if_pos h] at hw; rw [if_neg (by omega)]; omega
        · rw [if_neg h] at hw; rw [if_pos (by omega)]; omega
      have hform : ∀ a b : Nat, raw v' a b = if a = i ∧ b < j + 1 then raw mat row (skip cfCol b) else raw res a b := by
        intro a b
        rw [hv]
        by_cases h1 : a = i ∧ b = j
        · obtain ⟨rfl, rfl⟩ := h1
          rw [if_pos ⟨rfl, rfl⟩, if_pos ⟨rfl, by omega⟩, hskip, hx]
        · rw [if_neg h1, h3]
          by_cases h2 : a = i ∧ b < j
          · rw [if_pos h2, if_pos ⟨h2.1, by omega⟩]
          · rw [if_neg h2, if_neg (by omega)]
      have hw' : j + 1 = if cfCol < c + 1 then c + 1 - 1 else c + 1 := by
        rw [hw]; split <;> split <;> omega
      simp only [hx, ok_bind, hv']
      by_cases hjk : j + 1 = k
      · rw [if_pos (by omega)]
        exact ⟨_, rfl, j + 1, hw', by omega, by simp [hjk], hform⟩
      · rw [if_neg (by omega)]
        exact ⟨_, rfl, j + 1, hw', by omega, by simp [hjk], hform⟩

theorem cof_inner_skip {K : Type} [Elem K] (mat : List (List K)) (cfRow cfCol n : Nat) (s : CofState K) (m : Nat) :
    loop (cofStep mat cfRow cfCol n cfRow) s m = ok s := by
  induction m with
  | zero => rfl
  | succ m ih => rw [loop, ih]; simp [cofStep]

theorem getCofactor_ok {K : Type} [Elem K] (mat : List (List K)) (cfRow cfCol k : Nat) (hk : 0 < k) (hr : cfRow ≤ k) (hc : cfCol ≤ k)
    (hm : ∀ a b : Nat, a ≤ k → b ≤ k → ∃ x, raw mat a b = ok x) :
    ∃ v, getCofactor mat cfRow cfCol (k + 1) = ok v ∧
      ∀ a b : Nat, a < k → b < k → raw v a b = raw mat (skip cfRow a) (skip cfCol b) := by
  set z : List (List K) := mat.map fun row => row.map fun _ => (0 : K) with hz
  have hzm : ∀ a b : Nat, a < k → b < k → ∃ x, raw z a b = ok x := by
    intro a b ha hb
    obtain ⟨x, hx⟩ := hm a b (by omega) (by omega)
    rw [raw_nat] at hx ⊢
    rw [hz, List.getElem?_map]
    cases hrow : mat[a]? with
    | none => simp [hrow] at hx
    | some row =>
      simp only [hrow, Option.map_some, List.getElem?_map] at hx ⊢
      cases hcell : row[b]? with
      | none => simp [hcell] at hx
      | some y => exact ⟨0, by simp⟩
  have key := loop_inv (step := fun s row => loop (cofStep mat cfRow cfCol (k + 1) row) s (k + 1))
    (s := (⟨z, 0, 0⟩ : CofState K))
    (fun r s => s.i = (if cfRow < r then r - 1 else r) ∧ s.j = 0 ∧
      ∀ a b : Nat, raw s.res a b = if a < s.i ∧ b < k then raw mat (skip cfRow a) (skip cfCol b) else raw z a b)
    ⟨by simp, rfl, by simp⟩ (k + 1) ?_
  · obtain ⟨s, h1, h2, h3, h4⟩ := key
    refine ⟨s.res, by unfold getCofactor; rw [← hz, h1]; rfl, ?_⟩
    intro a b ha hb
    rw [h4, if_pos ⟨by rw [h2, if_pos (by omega)]; omega, hb⟩]
  · rintro row ⟨r, i, j⟩ hrow ⟨h2, h3, h4⟩
    simp only at h2 h3 h4
    subst h3
    by_cases hrc : row = cfRow
    · subst hrc
      refine ⟨_, cof_inner_skip _ _ _ _ _ _, ?_, rfl, h4⟩
      simp only [h2]
      rw [if_neg (by omega), if_pos (by omega)]; omega
    · have hik : i < k := by
        rw [h2]; split <;> omega
      obtain ⟨res', h5, h6⟩ := cof_inner mat cfRow cfCol k row i r hrc hk hc hik (fun b hb => hm row b (by omega) hb) (by
        intro a b ha hb
        rw [h4]
        split
        · apply hm
          · unfold skip; split <;> omega
          · unfold skip; split <;> omega
        · exact hzm a b ha hb)
      refine ⟨_, h5, ?_, rfl, ?_⟩
      · simp only
        rw [h2]; split <;> split <;> omega
      · intro a b
        simp only
        have hskip : skip cfRow i = row := by
          unfold skip
          by_cases h : cfRow < row
          · rw [if_pos h] at h2; rw [if_neg (by omega)]; omega
          · rw [if_neg h] at h2; rw [if_pos (by omega)]; omega
        rw [h6, h4]
        by_cases h1 : a = i ∧ b < k
        · rw [if_pos h1, if_pos ⟨by omega, h1.2⟩, h1.1, hskip]
        · rw [if_neg h1]
          by_cases h2 : a < i ∧ b < k
          · rw [if_pos h2, if_pos ⟨by omega, h2.2⟩]
          · rw [if_neg h2, if_neg (by omega)]

/-! ### Determinant -/

section exact
variable {R K : Type} [Field R] [Elem K] {f : R → K}

/-- The upper left corner of a storage holds `M`. -/
def Top {n : ℕ} (f : R → K) (v : List (List K)) (M : Matrix (Fin n) (Fin n) R) : Prop :=
  ∀ i j : Fin n, raw v (i : ℕ) (j : ℕ) = ok (f (M i j))

theorem top_ofMatrix {n : ℕ} (M : Matrix (Fin n) (Fin n) R) : Top f (ofMatrix f M).vals M := fun i j => raw_ofMatrix f M i j

theorem skip_succAbove {n : ℕ} (r : Fin (n + 1)) (i : Fin n) : skip r i = (r.succAbove i : ℕ) := by
  unfold skip Fin.succAbove
  by_cases h : (i : ℕ) < r
  · rw [if_pos h, if_pos (by simpa [Fin.lt_def] using h)]; rfl
  · rw [if_neg h, if_neg (by simpa [Fin.lt_def] using h)]; rfl

theorem cofactor_top {n : ℕ} {v : List (List K)} {M : Matrix (Fin (n + 2)) (Fin (n + 2)) R} (h : Top f v M) (r c : Fin (n + 2)) :
    ∃ w, getCofactor v r c (n + 2) = ok w ∧ Top f w (M.submatrix r.succAbove c.succAbove) := by
  obtain ⟨w, h1, h2⟩ := getCofactor_ok v r c (n + 1) (by omega) (by have := r.2; omega) (by have := c.2; omega)
    (fun a b ha hb => ⟨_, h ⟨a, by omega⟩ ⟨b, by omega⟩⟩)
  refine ⟨w, h1, ?_⟩
  intro i j
  rw [h2 i j i.2 j.2, skip_succAbove, skip_succAbove, h]
  rfl

theorem sign_emb (hf : Emb f) (i : ℕ) : (if i % 2 = 0 then (1 : K) else Elem.neg1) = f ((-1) ^ i) := by
  rcases Nat.even_or_odd i with h | h
  · rw [if_pos (Nat.even_iff.mp h), h.neg_one_pow, hf.one]
  · rw [if_neg (by have := Nat.odd_iff.mp h; omega), h.neg_one_pow, hf.neg1]

theorem calcDet_ok (hf : Emb f) : ∀ (n : ℕ) (v : List (List K)) (M : Matrix (Fin (n + 1)) (Fin (n + 1)) R), Top f v M →
    calcDet (n + 1) v = ok (f M.det)
  | 0, v, M, h => by
    have := h 0 0
    simp only [Fin.val_zero] at this
    rw [calcDet, Matrix.det_fin_one]
    exact this
  | n + 1, v, M, h => by
    rw [calcDet, Matrix.det_succ_row_zero]
    apply loop_sum hf
    intro acc i
    obtain ⟨w, h1, h2⟩ := cofactor_top h 0 i
    have h3 := calcDet_ok hf n w _ h2
    have h4 := h 0 i
    simp only [Fin.val_zero] at h4 h1
    rw [h1]
    simp only [ok_bind]
    rw [show raw v 0 ((i : ℕ) : ℤ) = ok (f (M 0 i)) from h4, ok_bind, h3, ok_bind, sign_emb hf, ← hf.mul, ← hf.mul, ← hf.add]
    rfl

theorem rows_ofMatrix {n p : ℕ} (M : Matrix (Fin n) (Fin p) R) : (ofMatrix f M).rows = n := rfl
theorem cols_ofMatrix {n p : ℕ} (M : Matrix (Fin n) (Fin p) R) : (ofMatrix f M).cols = p := rfl

open Classical in
theorem isRowNull_ok (hf : Emb f) {n p : ℕ} (M : Matrix (Fin n) (Fin p) R) (i : Fin n) :
    (ofMatrix f M).isRowNull (i : ℕ) = ok (decide (∀ j, M i j = 0)) := by
  unfold isRowNull
  rw [rows_ofMatrix, cols_ofMatrix, if_neg (by have := i.2; omega)]
  rw [allM_ok (q := fun j : ℤ => ∀ h : 0 ≤ j ∧ j < p, M i ⟨j.toNat, by omega⟩ = 0)]
  · congr 1
    rw [decide_eq_decide]
    simp only [Int.toNat_natCast, List.mem_map, List.mem_range, forall_exists_index, and_imp]
    constructor
    · intro h j
      exact h j j j.2 rfl ⟨by omega, by have := j.2; omega⟩
    · rintro h _ j hj rfl h1
      exact h _
  · intro j hj
    simp only [Int.toNat_natCast, List.mem_map, List.mem_range] at hj
    obtain ⟨j, hj, rfl⟩ := hj
    simp only [Int.ofNat_eq_natCast]
    rw [raw_ofMatrix' f M i j i.2 hj, ok_bind]
    congr 1
    rw [decide_eq_decide, ← hf.zero, hf.same]
    constructor
    · intro h _; exact h
    · intro h; exact h ⟨by omega, by omega⟩

open Classical in
theorem isColumnNull_ok (hf : Emb f) {n p : ℕ} (M : Matrix (Fin n) (Fin p) R) (j : Fin p) :
    (ofMatrix f M).isColumnNull (j : ℕ) = ok (decide (∀ i, M i j = 0)) := by
  unfold isColumnNull
  rw [rows_ofMatrix, cols_ofMatrix, if_neg (by have := j.2; omega)]
  rw [allM_ok (q := fun i : ℤ => ∀ h : 0 ≤ i ∧ i < n, M ⟨i.toNat, by omega⟩ j = 0)]
  · congr 1
    rw [decide_eq_decide]
    simp only [Int.toNat_natCast, List.mem_map, List.mem_range, forall_exists_index, and_imp]
    constructor
    · intro h i
      exact h i i i.2 rfl ⟨by omega, by have := i.2; omega⟩
    · rintro h _ i hi rfl h1
      exact h _
  · intro i hi
    simp only [Int.toNat_natCast, List.mem_map, List.mem_range] at hi
    obtain ⟨i, hi, rfl⟩ := hi
    simp only [Int.ofNat_eq_natCast]
    rw [raw_ofMatrix' f M i j hi j.2, ok_bind]
    congr 1
    rw [decide_eq_decide, ← hf.zero, hf.same]
    constructor
    · intro h _; exact h
    · intro h; exact h ⟨by omega, by omega⟩

open Classical in
theorem areRowsEqual_ok (hf : Emb f) {n p : ℕ} (M : Matrix (Fin n) (Fin p) R) (i i' : Fin n) :
    (ofMatrix f M).areRowsEqual (i : ℕ) (i' : ℕ) = ok (decide (∀ j, M i j = M i' j)) := by
  unfold areRowsEqual
  rw [rows_ofMatrix, cols_ofMatrix, if_neg (by have := i.2; have := i'.2; omega)]
  rw [allM_ok (q := fun j : ℤ => ∀ h : 0 ≤ j ∧ j < p, M i ⟨j.toNat, by omega⟩ = M i' ⟨j.toNat, by omega⟩)]
  · congr 1
    rw [decide_eq_decide]
    simp only [Int.toNat_natCast, List.mem_map, List.mem_range, forall_exists_index, and_imp]
    constructor
    · intro h j
      exact h j j j.2 rfl ⟨by omega, by have := j.2; omega⟩
    · rintro h _ j hj rfl h1
      exact h _
  · intro j hj
    simp only [Int.toNat_natCast, List.mem_map, List.mem_range] at hj
    obtain ⟨j, hj, rfl⟩ := hj
    simp only [Int.ofNat_eq_natCast]
    rw [raw_ofMatrix' f M i j i.2 hj, ok_bind, raw_ofMatrix' f M i' j i'.2 hj, ok_bind]
    congr 1
    rw [decide_eq_decide, hf.same]
    constructor
    · intro h _; exact h
    · intro h; exact h ⟨by omega, by omega⟩

open Classical in
theorem areColumnsEqual_ok (hf : Emb f) {n p : ℕ} (M : Matrix (Fin n) (Fin p) R) (j j' : Fin p) :
    (ofMatrix f M).areColumnsEqual (j : ℕ) (j' : ℕ) = ok (decide (∀ i, M i j = M i j')) := by
  unfold areColumnsEqual
  rw [rows_ofMatrix, cols_ofMatrix, if_neg (by have := j.2; have := j'.2; omega)]
  rw [allM_ok (q := fun i : ℤ => ∀ h : 0 ≤ i ∧ i < n, M ⟨i.toNat, by omega⟩ j = M ⟨i.toNat, by omega⟩ j')]
  · congr 1
    rw [decide_eq_decide]
    simp only [Int.toNat_natCast, List.mem_map, List.mem_range, forall_exists_index, and_imp]
    constructor
    · intro h i
      exact h i i i.2 rfl ⟨by omega, by have := i.2; omega⟩
    · rintro h _ i hi rfl h1
      exact h _
  · intro i hi
    simp only [Int.toNat_natCast, List.mem_map, List.mem_range] at hi
    obtain ⟨i, hi, rfl⟩ := hi
    simp only [Int.ofNat_eq_natCast]
    rw [raw_ofMatrix' f M i j hi j.2, ok_bind, raw_ofMatrix' f M i j' hi j'.2, ok_bind]
    congr 1
    rw [decide_eq_decide, hf.same]
    constructor
    · intro h _; exact h
    · intro h; exact h ⟨by omega, by omega⟩

open Classical in
/-- A search over pairs `i < j` finds an equal pair or reports that there is none. -/
theorem anyPair_ok {n : ℕ} {p : ℕ → ℕ → Outcome Bool} {q : Fin n → Fin n → Prop}
    (h : ∀ i j : Fin n, p i j = ok (decide (q i j))) :
    ∃ b, anyM (fun (i : ℕ) => anyM (fun (j : ℕ) => p i j) (List.range' (i + 1) (n - (i + 1)))) (List.range n) = ok b ∧
      (b = true → ∃ i j, i ≠ j ∧ q i j) := by
  rw [anyM_ok (q := fun i : ℕ => ∃ hi : i < n, ∃ j : ℕ, ∃ hj : j < n, i < j ∧ q ⟨i, hi⟩ ⟨j, hj⟩)]
  · refine ⟨_, rfl, ?_⟩
    intro hb
    obtain ⟨i, _, hi, j, hj, hij, hq⟩ := of_decide_eq_true hb
    exact ⟨⟨i, hi⟩, ⟨j, hj⟩, by simp [Fin.ext_iff]; omega, hq⟩
  · intro i hi
    rw [List.mem_range] at hi
    rw [anyM_ok (q := fun j : ℕ => ∃ hj : j < n, i < j ∧ q ⟨i, hi⟩ ⟨j, hj⟩)]
    · congr 1
      rw [decide_eq_decide]
      constructor
      · rintro ⟨j, _, hj, hij, hq⟩
        exact ⟨hi, j, hj, hij, hq⟩
      · rintro ⟨_, j, hj, hij, hq⟩
        exact ⟨j, by rw [List.mem_range'_1]; omega, hj, hij, hq⟩
    · intro j hj
      rw [List.mem_range'_1] at hj
      have hjn : j < n := by omega
      rw [show p i j = ok (decide (q ⟨i, hi⟩ ⟨j, hjn⟩)) from h ⟨i, hi⟩ ⟨j, hjn⟩]
      congr 1
      rw [decide_eq_decide]
      constructor
      · intro hq; exact ⟨hjn, by omega, hq⟩
      · rintro ⟨_, _, hq⟩; exact hq

open Classical in
theorem det_ok (hf : Emb f) {n : ℕ} (M : Matrix (Fin (n + 1)) (Fin (n + 1)) R) : (ofMatrix f M).det = ok (f M.det) := by
  unfold det
  rw [if_neg (by simp [ofMatrix])]
  by_cases h1 : (ofMatrix f M).rows = 1
  · rw [if_pos h1]
    rw [rows_ofMatrix] at h1
    have : n = 0 := by omega
    subst this
    rw [Matrix.det_fin_one]
    exact raw_ofMatrix f M 0 0
  · rw [if_neg h1]
    have hn : (ofMatrix f M).rows.toNat = n + 1 := by simp [rows_ofMatrix]
    simp only [hn]
    rw [anyM_ok (q := fun r : ℤ => ∃ h : 0 ≤ r ∧ r < (n + 1 : ℕ), ∀ j, M ⟨r.toNat, by omega⟩ j = 0)]
    swap
    · intro r hr
      simp only [List.mem_map, List.mem_range] at hr
      obtain ⟨i, hi, rfl⟩ := hr
      simp only [Int.ofNat_eq_natCast]
      rw [show (ofMatrix f M).isRowNull (i : ℤ) = _ from isRowNull_ok hf M ⟨i, hi⟩]
      congr 1
      rw [decide_eq_decide]
      constructor
      · intro h; exact ⟨⟨by omega, by omega⟩, h⟩
      · rintro ⟨_, h⟩; exact h
    rw [ok_bind]
    split
    · rename_i hb
      obtain ⟨r, _, hr, h⟩ := of_decide_eq_true hb
      rw [Matrix.det_eq_zero_of_row_eq_zero _ h, hf.zero]
    rw [anyM_ok (q := fun r : ℤ => ∃ h : 0 ≤ r ∧ r < (n + 1 : ℕ), ∀ i, M i ⟨r.toNat, by omega⟩ = 0)]
    swap
    · intro r hr
      simp only [List.mem_map, List.mem_range] at hr
      obtain ⟨i, hi, rfl⟩ := hr
      simp only [Int.ofNat_eq_natCast]
      rw [show (ofMatrix f M).isColumnNull (i : ℤ) = _ from isColumnNull_ok hf M ⟨i, hi⟩]
      congr 1
      rw [decide_eq_decide]
      constructor
      · intro h; exact ⟨⟨by omega, by omega⟩, h⟩
      · rintro ⟨_, h⟩; exact h
    rw [ok_bind]
    split
    · rename_i hb
      obtain ⟨r, _, hr, h⟩ := of_decide_eq_true hb
      rw [Matrix.det_eq_zero_of_column_eq_zero _ h, hf.zero]
    obtain ⟨b, hb, hb'⟩ := anyPair_ok (n := n + 1) (p := fun i j => (ofMatrix f M).areRowsEqual (i : ℕ) (j : ℕ))
      (q := fun i j => ∀ c, M i c = M j c) (fun i j => by convert areRowsEqual_ok hf M i j)
    rw [hb, ok_bind]
    split
    · rename_i h
      obtain ⟨i, j, hij, hq⟩ := hb' h
      rw [Matrix.det_zero_of_row_eq hij (funext hq), hf.zero]
    obtain ⟨b, hb, hb'⟩ := anyPair_ok (n := n + 1) (p := fun i j => (ofMatrix f M).areColumnsEqual (i : ℕ) (j : ℕ))
      (q := fun i j => ∀ c, M c i = M c j) (fun i j => by convert areColumnsEqual_ok hf M i j)
    rw [hb, ok_bind]
    split
    · rename_i h
      obtain ⟨i, j, hij, hq⟩ := hb' h
      rw [Matrix.det_zero_of_column_eq hij hq, hf.zero]
    exact calcDet_ok hf n _ M (top_ofMatrix M)

theorem adjoint_ok (hf : Emb f) {n : ℕ} (M : Matrix (Fin n) (Fin n) R) :
    (ofMatrix f M).adjoint = ok (ofMatrix f M.adjugate) := by
  unfold adjoint
  rw [if_neg (by simp [ofMatrix]), rows_ofMatrix, create_nat, ok_bind]
  by_cases h1 : (n : ℤ) = 1
  · have : n = 1 := by omega
    subst this
    rw [if_pos h1]
    simp [ofMatrix, hf.one]
  · rw [if_neg h1]
    simp only [Int.toNat_natCast]
    rw [build_ok (fun j i => f (M.adjugate j i))]
    · rfl
    · intro j i
      match n, M, i, j with
      | 1, _, _, _ => omega
      | n + 2, M, i, j =>
        obtain ⟨w, h2, h3⟩ := cofactor_top (top_ofMatrix (f := f) M) i j
        rw [h2, ok_bind]
        simp only [show n + 2 - 1 = n + 1 from rfl]
        rw [calcDet_ok hf n w _ h3, ok_bind, sign_emb hf, ← hf.mul, Matrix.adjugate_fin_succ_eq_det_submatrix]

theorem invert_ok (hf : Emb f) {n : ℕ} (M : Matrix (Fin (n + 1)) (Fin (n + 1)) R) (h : M.det ≠ 0) :
    (ofMatrix f M).invert = ok (ofMatrix f M⁻¹) := by
  unfold invert
  rw [det_ok hf, ok_bind, if_neg, adjoint_ok hf, ok_bind, rows_ofMatrix]
  · unfold ofSize
    rw [create_nat, ok_bind]
    simp only [Int.toNat_natCast]
    rw [build_ok (fun i j => f (M⁻¹ i j))]
    · rfl
    · intro i j
      rw [at_ofMatrix, ok_bind, ← hf.div _ _ h, Matrix.inv_def]
      simp [div_eq_inv_mul]
  · rw [← hf.zero, hf.same]; exact h

theorem identity_ok (hf : Emb f) (n : ℕ) : identity (K := K) n = ok (ofMatrix f (1 : Matrix (Fin n) (Fin n) R)) := by
  unfold identity
  rw [create_nat, ok_bind]
  simp only [Int.toNat_natCast]
  rw [build_ok (fun i j => f ((1 : Matrix (Fin n) (Fin n) R) i j))]
  · rfl
  · intro i j
    by_cases hij : i = j
    · subst hij; simp [hf.one]
    · rw [if_neg (by simpa [Fin.ext_iff] using hij), raw_ofMatrix, Matrix.one_apply_ne hij, hf.zero]; rfl

theorem mul_ok (hf : Emb f) {m k n p : ℕ} (A : Matrix (Fin m) (Fin k) R) (B : Matrix (Fin n) (Fin p) R) (h1 : n ≤ m) (h2 : n ≤ k) :
    (ofMatrix f A).mul (ofMatrix f B) = ok (ofMatrix f (A.submatrix (Fin.castLE h1) (Fin.castLE h2) * B)) := by
  unfold mul ofSize
  rw [rows_ofMatrix, cols_ofMatrix, create_nat, ok_bind]
  simp only [Int.toNat_natCast]
  rw [build_ok (fun i j => f ((A.submatrix (Fin.castLE h1) (Fin.castLE h2) * B) i j))]
  · rfl
  · intro i j
    simp only [Matrix.mul_apply, Matrix.submatrix_apply]
    apply loop_sum hf
    intro acc l
    have := raw_ofMatrix f A (Fin.castLE h1 i) (Fin.castLE h2 l)
    simp only [Fin.val_castLE] at this
    rw [this, ok_bind, at_ofMatrix, ok_bind, ← hf.mul, ← hf.add]

theorem mulVec_ok (hf : Emb f) {n p : ℕ} (M : Matrix (Fin n) (Fin p) R) (v : Fin p → R) (hnp : n ≤ p) :
    (ofMatrix f M).mulVec (List.ofFn fun j => f (v j)) =
      ok (List.ofFn fun k : Fin p => if h : (k : ℕ) < n then f ((M.mulVec v) ⟨k, h⟩) else 0) := by
  unfold mulVec
  rw [rows_ofMatrix, cols_ofMatrix]
  simp only [Int.toNat_natCast, List.length_ofFn]
  have key := loop_inv (step := fun res i =>
    loop (fun res j => do
      let acc ← vget res i
      let a ← raw (ofMatrix f M).vals i j
      let x ← vget (List.ofFn fun j => f (v j)) j
      ok (res.set i (acc + a * x))) res p) (s := List.replicate p (0 : K))
    (fun i res => res = List.ofFn fun k : Fin p => if h : (k : ℕ) < n ∧ (k : ℕ) < i then f ((M.mulVec v) ⟨k, h.1⟩) else 0)
    (by simp [List.ofFn_const]) n ?_
  · obtain ⟨s, h1, h2⟩ := key
    rw [h1, h2]
    congr 2
    funext k
    by_cases h : (k : ℕ) < n <;> simp [h]
  · rintro i res hi rfl
    have hip : i < p := by omega
    set r0 := List.ofFn fun k : Fin p => if h : (k : ℕ) < n ∧ (k : ℕ) < i then f ((M.mulVec v) ⟨k, h.1⟩) else (0 : K) with hr0
    set t : ℕ → R := fun j => if h : j < p then M ⟨i, hi⟩ ⟨j, h⟩ * v ⟨j, h⟩ else 0 with ht
    obtain ⟨s, h1, h2⟩ := loop_inv (step := fun res j => (do
      let acc ← vget res i
      let a ← raw (ofMatrix f M).vals i j
      let x ← vget (List.ofFn fun j => f (v j)) j
      ok (res.set i (acc + a * x)))) (s := r0)
      (fun j res => res = r0.set i (f (∑ l ∈ Finset.range j, t l)))
      (by
        simp only [Finset.range_zero, Finset.sum_empty, hf.zero]
        apply List.ext_getElem
        · simp
        · intro k hk1 hk2
          rw [List.getElem_set]
          split
          · rename_i h; subst h; simp [hr0]
          · rfl) p (by
        rintro j res hj rfl
        refine ⟨_, ?_, rfl⟩
        have hv : vget (r0.set i (f (∑ l ∈ Finset.range j, t l))) i = ok (f (∑ l ∈ Finset.range j, t l)) := by
          unfold vget
          rw [List.getElem?_set_self (by simp [hr0, hip])]
        have hx : vget (List.ofFn fun j => f (v j)) j = ok (f (v ⟨j, hj⟩)) := by
          simp [vget, hj]
        rw [hv, ok_bind, raw_ofMatrix' f M i j hi hj, ok_bind, hx, ok_bind, List.set_set, ← hf.mul, ← hf.add,
          Finset.sum_range_succ]
        congr 4
        simp [ht, hj])
    refine ⟨s, h1, ?_⟩
    rw [h2]
    apply List.ext_getElem
    · simp [hr0]
    · intro k hk1 hk2
      rw [List.getElem_set]
      have hkp : k < p := by simpa using hk2
      simp only [List.getElem_ofFn, hr0]
      by_cases hik : i = k
      · subst hik
        rw [if_pos rfl, dif_pos ⟨hi, by omega⟩]
        congr 1
        rw [Finset.sum_range]
        simp only [ht, Fin.is_lt, dif_pos, Matrix.mulVec, dotProduct]
      · rw [if_neg hik]
        by_cases hk : k < n ∧ k < i
        · rw [dif_pos hk, dif_pos ⟨hk.1, by omega⟩]
        · rw [dif_neg hk, dif_neg (by omega)]

end exact

section any
variable {R K : Type} [Elem K] {f : R → K}

theorem zipWith_ok (op : K → K → K) (g : R → R → R) {n p : ℕ} (h : ∀ a b, op (f a) (f b) = f (g a b))
    (A B : Matrix (Fin n) (Fin p) R) :
    (ofMatrix f A).zipWith op (ofMatrix f B) = ok (ofMatrix f <| Matrix.of fun i j => g (A i j) (B i j)) := by
  unfold zipWith ofSize
  show (create (n : ℤ) (p : ℤ) (0:K) >>= _) = _
  rw [create_nat, ok_bind]
  show (build ((n : ℤ).toNat) ((p : ℤ).toNat) _ >>= _) = _
  simp only [Int.toNat_natCast]
  rw [build_ok (fun i j => f (g (A i j) (B i j)))]
  · rfl
  · intro i j
    rw [raw_ofMatrix, ok_bind, at_ofMatrix, ok_bind, h]

theorem mapAll_ok (op : K → K) (g : R → R) {n p : ℕ} (A : Matrix (Fin n) (Fin p) R) (h : ∀ i j, op (f (A i j)) = f (g (A i j))) :
    (ofMatrix f A).mapAll op = ok (ofMatrix f <| Matrix.of fun i j => g (A i j)) := by
  unfold mapAll ofSize
  show (create (n : ℤ) (p : ℤ) (0:K) >>= _) = _
  rw [create_nat, ok_bind]
  show (build ((n : ℤ).toNat) ((p : ℤ).toNat) _ >>= _) = _
  simp only [Int.toNat_natCast]
  rw [build_ok (fun i j => f (g (A i j)))]
  · rfl
  · intro i j
    rw [raw_ofMatrix, ok_bind, h]

theorem transpose_ok {n : ℕ} (A : Matrix (Fin n) (Fin n) R) : (ofMatrix f A).transpose = ok (ofMatrix f A.transpose) := by
  unfold transpose ofSize
  show (create (n : ℤ) (n : ℤ) (0:K) >>= _) = _
  rw [create_nat, ok_bind]
  show (build ((n : ℤ).toNat) ((n : ℤ).toNat) _ >>= _) = _
  simp only [Int.toNat_natCast]
  rw [build_ok (fun i j => f (A.transpose i j))]
  · rfl
  · intro i j
    rw [raw_ofMatrix]; rfl

theorem assign_ok {n p : ℕ} (m : Mat K) (A : Matrix (Fin n) (Fin p) R) : m.assign (ofMatrix f A) = ok (ofMatrix f A) := by
  unfold assign
  show (build ((n : ℤ).toNat) ((p : ℤ).toNat) _ >>= _) = _
  simp only [Int.toNat_natCast]
  rw [build_ok (fun i j => f (A i j))]
  · rfl
  · intro i j
    rw [at_ofMatrix]

end any

/-! ### First failure in a loop -/

theorem collect_fail {α : Type} {f : Nat → Outcome α} {n k : Nat} (hk : k < n) (h : ∀ i < k, ∃ a, f i = ok a)
    (hf : ∀ a, f k ≠ ok a) : (∀ e, f k = throw e → collect f n = throw e) ∧ (f k = ub → collect f n = ub) := by
  have h0 : ∀ m ≤ k, ∃ l, collect f m = ok l := by
    intro m hm
    induction m with
    | zero => exact ⟨[], rfl⟩
    | succ m ih =>
      obtain ⟨l, hl⟩ := ih (by omega)
      obtain ⟨a, ha⟩ := h m (by omega)
      exact ⟨l ++ [a], by simp [collect, hl, ha]⟩
  obtain ⟨l, hl⟩ := h0 k le_rfl
  have h1 : ∀ d, (∀ e, f k = throw e → collect f (k + 1 + d) = throw e) ∧ (f k = ub → collect f (k + 1 + d) = ub) := by
    intro d
    induction d with
    | zero => exact ⟨fun e he => by simp [collect, hl, he], fun he => by simp [collect, hl, he]⟩
    | succ d ih =>
      exact ⟨fun e he => by rw [← add_assoc, collect, ih.1 e he]; rfl, fun he => by rw [← add_assoc, collect, ih.2 he]; rfl⟩
  obtain ⟨d, rfl⟩ : ∃ d, n = k + 1 + d := ⟨n - (k + 1), by omega⟩
  exact h1 d

theorem collect_length {α : Type} {f : Nat → Outcome α} : ∀ {n : Nat} {l : List α}, collect f n = ok l →
    l.length = n ∧ ∀ a ∈ l, ∃ i < n, f i = ok a
  | 0, l, h => by simp [collect] at h; subst h; simp
  | n + 1, l, h => by
    rw [collect, bind_eq_ok] at h
    obtain ⟨l', h1, h2⟩ := h
    rw [bind_eq_ok] at h2
    obtain ⟨a, h3, h4⟩ := h2
    simp only [ok_inj] at h4
    obtain ⟨h5, h6⟩ := collect_length h1
    subst h4
    refine ⟨by simp [h5], ?_⟩
    intro b hb
    rcases List.mem_append.mp hb with hb | hb
    · obtain ⟨i, hi, h7⟩ := h6 b hb
      exact ⟨i, by omega, h7⟩
    · simp at hb; subst hb; exact ⟨n, by omega, h3⟩

theorem build_shape {K : Type} {r c : Nat} {f : Nat → Nat → Outcome K} {v : List (List K)} (h : build r c f = ok v) :
    v.length = r ∧ ∀ row ∈ v, row.length = c := by
  obtain ⟨h1, h2⟩ := collect_length h
  refine ⟨h1, fun row hr => ?_⟩
  obtain ⟨i, _, h3⟩ := h2 row hr
  exact (collect_length h3).1

end Mat
