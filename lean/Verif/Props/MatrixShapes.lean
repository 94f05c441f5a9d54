import Verif.Props.Matrices
import Mathlib.Tactic.Push

/-!
# Matrices of every shape (C161)

What each operation of `matrix<T>` does for operands of any shapes: the mathematical result, another matrix, an exception or undefined behaviour.
-/

open Outcome Mat

namespace MatShapes

/-- An outcome that is not an exception. -/
def Quiet {α : Type} (o : Outcome α) : Prop := o = ub ∨ ∃ a, o = ok a

/-- A loop that reaches an undefined step. -/
theorem collect_ub {α : Type} {f : Nat → Outcome α} {n k : Nat} (hk : k < n) (h : ∀ i < n, Quiet (f i)) (hf : f k = ub) : collect f n = ub := by
  induction n with
  | zero => omega
  | succ n ih =>
    rw [collect]
    by_cases h1 : k < n
    · rw [ih h1 fun i hi => h i (by omega)]; rfl
    · have : k = n := by omega
      subst this
      have hq : Quiet (collect f k) := by
        clear hf ih hk h1
        have hh : ∀ i < k, Quiet (f i) := fun i hi => h i (by omega)
        clear h
        induction k with
        | zero => exact .inr ⟨_, rfl⟩
        | succ k ih =>
          rw [collect]
          rcases ih fun i hi => hh i (by omega) with e | ⟨l, e⟩
          · rw [e]; exact .inl rfl
          · rcases hh k (by omega) with e' | ⟨a, e'⟩
            · rw [e, e']; exact .inl rfl
            · rw [e, e']; exact .inr ⟨_, rfl⟩
      rcases hq with e | ⟨l, e⟩
      · rw [e]; rfl
      · rw [e, hf]; rfl

/-- A loop without exceptions. -/
theorem collect_quiet {α : Type} {f : Nat → Outcome α} {n : Nat} (h : ∀ i < n, Quiet (f i)) : Quiet (collect f n) := by
  induction n with
  | zero => exact .inr ⟨_, rfl⟩
  | succ n ih =>
    rw [collect]
    rcases ih fun i hi => h i (by omega) with e | ⟨l, e⟩
    · rw [e]; exact .inl rfl
    · rcases h n (by omega) with e' | ⟨a, e'⟩
      · rw [e, e']; exact .inl rfl
      · rw [e, e']; exact .inr ⟨_, rfl⟩

theorem build_ub {K : Type} {r c i j : Nat} {f : Nat → Nat → Outcome K} (hi : i < r) (hj : j < c) (h : ∀ i j, i < r → j < c → Quiet (f i j)) (hf : f i j = ub) :
    build r c f = ub :=
  collect_ub hi (fun a ha => collect_quiet fun b hb => h a b ha hb) (collect_ub hj (fun b hb => h i b hi hb) hf)

theorem loop_quiet {σ : Type} {step : σ → Nat → Outcome σ} {n : Nat} (s : σ) (h : ∀ s i, i < n → Quiet (step s i)) : Quiet (loop step s n) := by
  induction n with
  | zero => exact .inr ⟨_, rfl⟩
  | succ n ih =>
    rw [loop]
    rcases ih fun s i hi => h s i (by omega) with e | ⟨l, e⟩
    · rw [e]; exact .inl rfl
    · rw [e, ok_bind]; exact h l n (by omega)

theorem loop_ub {σ : Type} {step : σ → Nat → Outcome σ} {n k : Nat} (s : σ) (hk : k < n) (h : ∀ s i, i < n → Quiet (step s i)) (hf : ∀ s, step s k = ub) :
    loop step s n = ub := by
  induction n with
  | zero => omega
  | succ n ih =>
    rw [loop]
    by_cases h1 : k < n
    · rw [ih h1 fun s i hi => h s i (by omega)]; rfl
    · have : k = n := by omega
      subst this
      rcases loop_quiet (n := k) s fun s i hi => h s i (by omega) with e | ⟨l, e⟩
      · rw [e]; rfl
      · rw [e, ok_bind, hf]

theorem raw_outside {R K : Type} {n p : ℕ} (f : R → K) (M : Matrix (Fin n) (Fin p) R) (i j : ℕ) (h : n ≤ i ∨ p ≤ j) : raw (ofMatrix f M).vals i j = ub := by
  rw [raw_nat]
  by_cases hi : i < n
  · have hj : p ≤ j := by omega
    simp [ofMatrix, hi, hj]
  · simp [ofMatrix, hi]

theorem raw_quiet {R K : Type} {n p : ℕ} (f : R → K) (M : Matrix (Fin n) (Fin p) R) (i j : ℕ) : Quiet (raw (ofMatrix f M).vals i j) := by
  by_cases h : i < n ∧ j < p
  · exact .inr ⟨_, raw_ofMatrix' f M i j h.1 h.2⟩
  · exact .inl (raw_outside f M i j (by omega))

end MatShapes

open MatShapes

section
variable {R K : Type} [Field R] [Elem K] {f : R → K}

/-- **C161.** `A * B` for all shapes: with a right factor of no elements the (empty) zero matrix of its shape; otherwise, if `A` has at least as many rows and columns as `B`
has rows, the product of the upper left square of `A` with `B`; otherwise undefined. -/
theorem C161_mul (hf : Emb f) {m k n p : ℕ} (A : Matrix (Fin m) (Fin k) R) (B : Matrix (Fin n) (Fin p) R) :
    (n = 0 ∨ p = 0 → (ofMatrix f A).mul (ofMatrix f B) = ok (ofMatrix f (0 : Matrix (Fin n) (Fin p) R))) ∧
    (∀ (h1 : n ≤ m) (h2 : n ≤ k), (ofMatrix f A).mul (ofMatrix f B) = ok (ofMatrix f (A.submatrix (Fin.castLE h1) (Fin.castLE h2) * B))) ∧
    (0 < n → 0 < p → m < n ∨ k < n → (ofMatrix f A).mul (ofMatrix f B) = ub) := by
  refine ⟨?_, fun h1 h2 => mul_ok hf A B h1 h2, ?_⟩
  · intro h
    unfold mul ofSize
    rw [rows_ofMatrix, cols_ofMatrix, create_nat, ok_bind]
    simp only [Int.toNat_natCast]
    rw [build_ok (fun (i : Fin n) (j : Fin p) => (0 : K)) (fun i j => by rcases h with rfl | rfl; exacts [i.elim0, j.elim0])]
    rw [ok_bind, ok_inj]
    unfold ofMatrix
    simp [hf.zero]
  · intro hn hp h
    unfold mul ofSize
    rw [rows_ofMatrix, cols_ofMatrix, create_nat, ok_bind]
    simp only [Int.toNat_natCast]
    have quiet : ∀ (i j : ℕ), j < p → ∀ (s : K) (l : ℕ), l < n → Quiet (do
        let a ← raw (ofMatrix f A).vals i l
        let b ← (ofMatrix f B).at' l j
        ok (s + a * b)) := by
      intro i j hj s l hl
      rcases raw_quiet f A i l with e | ⟨a, e⟩
      · rw [e]; exact .inl rfl
      · rw [e, ok_bind, at_ofMatrix f B ⟨l, hl⟩ ⟨j, hj⟩]; exact .inr ⟨_, rfl⟩
    have bad : ∀ i l : ℕ, m ≤ i ∨ k ≤ l → ∀ j s, (do
        let a ← raw (ofMatrix f A).vals i l
        let b ← (ofMatrix f B).at' l j
        ok (s + a * b)) = ub := by
      intro i l h j s; rw [raw_outside f A i l h]; rfl
    have key : ∃ i < n, ∃ l < n, m ≤ i ∨ k ≤ l := by
      rcases h with h | h
      · exact ⟨m, h, 0, hn, .inl le_rfl⟩
      · exact ⟨0, hn, k, h, .inr le_rfl⟩
    obtain ⟨i, hi, l, hl, hb⟩ := key
    rw [build_ub hi hp (fun i j _ hj => loop_quiet _ fun s l hl => quiet i j hj s l hl) (loop_ub _ hl (fun s l hl => quiet i 0 hp s l hl) fun s => bad i l hb _ s)]
    rfl

/-- **C161.** Matrices that can be multiplied and have elements: the result is the product exactly if the left factor is square. -/
theorem C161_mul_iff (hf : Emb f) {m k p : ℕ} (hk : 0 < k) (hp : 0 < p) (A : Matrix (Fin m) (Fin k) R) (B : Matrix (Fin k) (Fin p) R) :
    (ofMatrix f A).mul (ofMatrix f B) = ok (ofMatrix f (A * B)) ↔ m = k := by
  constructor
  · intro h
    rcases lt_trichotomy m k with h1 | h1 | h1
    · rw [(C161_mul hf A B).2.2 hk hp (.inl h1)] at h; cases h
    · exact h1
    · rw [(C161_mul hf A B).2.1 h1.le le_rfl, ok_inj] at h
      have := congrArg Mat.rows h
      simp only [rows_ofMatrix] at this
      omega
  · rintro rfl; exact mul_ok hf A B le_rfl le_rfl

/-- **C161.** `A * v` for all sizes: as many elements as `v`; the elements of the product followed by zeros, if `v` is long enough for rows and columns, otherwise undefined. -/
theorem C161_mulVec (hf : Emb f) {n p l : ℕ} (M : Matrix (Fin n) (Fin p) R) (v : Fin l → R) :
    (n = 0 ∨ p = 0 → (ofMatrix f M).mulVec (List.ofFn fun j => f (v j)) = ok (List.replicate l 0)) ∧
    (0 < n → 0 < p → l < n ∨ l < p → (ofMatrix f M).mulVec (List.ofFn fun j => f (v j)) = ub) := by
  have skip : ∀ (s : List K) (r : ℕ), loop (fun res (_ : ℕ) => ok res) s r = ok s := by
    intro s r
    induction r with
    | zero => rfl
    | succ r ih => rw [loop, ih, ok_bind]
  refine ⟨?_, ?_⟩
  · intro h
    unfold mulVec
    rw [rows_ofMatrix, cols_ofMatrix]
    simp only [Int.toNat_natCast, List.length_ofFn]
    rcases h with rfl | rfl
    · rfl
    · simp only [loop]; exact skip _ _
  · intro hn hp h
    unfold mulVec
    rw [rows_ofMatrix, cols_ofMatrix]
    simp only [Int.toNat_natCast, List.length_ofFn]
    set w : List K := List.ofFn fun j => f (v j) with hw
    have hwl : w.length = l := by simp [hw]
    have vq : ∀ (u : List K) i, Quiet (vget u i) := by
      intro u i; unfold vget
      cases u[i]? with
      | none => exact .inl rfl
      | some x => exact .inr ⟨_, rfl⟩
    have quiet : ∀ (i : ℕ) (s : List K) (j : ℕ), Quiet (do
        let acc ← vget s i
        let a ← raw (ofMatrix f M).vals i j
        let x ← vget w j
        ok (s.set i (acc + a * x))) := by
      intro i s j
      rcases vq s i with e | ⟨acc, e⟩
      · rw [e]; exact .inl rfl
      · rcases raw_quiet f M i j with e' | ⟨a, e'⟩
        · rw [e, e']; exact .inl rfl
        · rcases vq w j with e'' | ⟨x, e''⟩
          · rw [e, e', e'']; exact .inl rfl
          · rw [e, e', e'']; exact .inr ⟨_, rfl⟩
    by_cases h2 : l < p
    · refine loop_ub _ hn (fun s i _ => loop_quiet _ fun s j _ => quiet i s j) fun s => loop_ub _ h2 (fun s j _ => quiet 0 s j) fun s => ?_
      have e'' : vget w l = ub := by unfold vget; rw [List.getElem?_eq_none (by omega)]
      rcases vq s 0 with e | ⟨acc, e⟩
      · rw [e]; rfl
      · rcases raw_quiet f M 0 l with e' | ⟨a, e'⟩
        · rw [e]; show (raw (ofMatrix f M).vals ((0 : ℕ) : ℤ) (l : ℤ) >>= _) = ub; rw [e']; rfl
        · rw [e]; show (raw (ofMatrix f M).vals ((0 : ℕ) : ℤ) (l : ℤ) >>= _) = ub; rw [e', ok_bind, e'']; rfl
    · have h1 : l < n := by omega
      -- the result keeps its length, so that row `l` is outside
      have len : ∀ i r (s s' : List K), s.length = l → loop (fun res j => do
          let acc ← vget res i
          let a ← raw (ofMatrix f M).vals i j
          let x ← vget w j
          ok (res.set i (acc + a * x))) s r = ok s' → s'.length = l := by
        intro i r
        induction r with
        | zero => intro s s' hs e; rw [loop, ok_inj] at e; rw [← e]; exact hs
        | succ r ih =>
          intro s s' hs e
          rw [loop, bind_eq_ok] at e
          obtain ⟨t, e1, e2⟩ := e
          rw [bind_eq_ok] at e2
          obtain ⟨_, -, e2⟩ := e2
          rw [bind_eq_ok] at e2
          obtain ⟨_, -, e2⟩ := e2
          rw [bind_eq_ok] at e2
          obtain ⟨_, -, e2⟩ := e2
          rw [ok_inj] at e2
          rw [← e2, List.length_set]
          exact ih s t hs e1
      have outer : ∀ r ≤ n, Quiet (loop (fun res i => loop (fun res j => do
          let acc ← vget res i
          let a ← raw (ofMatrix f M).vals i j
          let x ← vget w j
          ok (res.set i (acc + a * x))) res p) (List.replicate l 0) r) ∧ ∀ s', loop (fun res i => loop (fun res j => do
          let acc ← vget res i
          let a ← raw (ofMatrix f M).vals i j
          let x ← vget w j
          ok (res.set i (acc + a * x))) res p) (List.replicate l 0) r = ok s' → s'.length = l ∧ r ≤ l := by
        intro r
        induction r with
        | zero => intro _; exact ⟨.inr ⟨_, rfl⟩, fun s' e => by rw [loop, ok_inj] at e; rw [← e]; simp⟩
        | succ r ih =>
          intro hr
          obtain ⟨q, ih⟩ := ih (by omega)
          rw [loop]
          rcases q with e | ⟨t, e⟩
          · rw [e]; exact ⟨.inl rfl, fun s' h => by cases h⟩
          · obtain ⟨ht, hrl⟩ := ih t e
            rw [e, ok_bind]
            refine ⟨loop_quiet _ fun s j _ => quiet r s j, fun s' e' => ⟨len r p t s' ht e', ?_⟩⟩
            by_contra hc
            have : r = l := by omega
            subst this
            obtain ⟨p', rfl⟩ := Nat.exists_eq_succ_of_ne_zero hp.ne'
            have hb : ∀ q, loop (fun res j => do
                let acc ← vget res r
                let a ← raw (ofMatrix f M).vals r j
                let x ← vget w j
                ok (res.set r (acc + a * x))) t (q + 1) = ub := by
              intro q
              induction q with
              | zero =>
                rw [loop, loop, ok_bind]
                have : vget t r = ub := by unfold vget; rw [List.getElem?_eq_none (by omega)]
                rw [this]; rfl
              | succ q ihq => rw [loop, ihq]; rfl
            rw [hb] at e'; cases e'
      rcases (outer n le_rfl).1 with e | ⟨t, e⟩
      · exact e
      · have := ((outer n le_rfl).2 t e).2
        omega

/-- **C161.** A matrix with elements times a vector of as many elements as it has columns: the product exactly if the matrix is square. -/
theorem C161_mulVec_iff (hf : Emb f) {n p : ℕ} (hn : 0 < n) (hp : 0 < p) (M : Matrix (Fin n) (Fin p) R) (v : Fin p → R) :
    (ofMatrix f M).mulVec (List.ofFn fun j => f (v j)) = ok (List.ofFn fun i => f (M.mulVec v i)) ↔ n = p := by
  constructor
  · intro h
    rcases lt_trichotomy n p with h1 | h1 | h1
    · rw [mulVec_ok hf M v h1.le, ok_inj] at h
      have := congrArg List.length h
      simp at this; omega
    · exact h1
    · rw [(C161_mulVec hf M v).2 hn hp (.inl h1)] at h; cases h
  · rintro rfl; exact C19_mulVec_partial hf M v

omit [Field R] in
/-- **C161.** `transpose()` of a matrix with elements is the transposed matrix exactly if the matrix is square, otherwise undefined; a matrix without elements is returned with
its shape unchanged. -/
theorem C161_transpose {n p : ℕ} (M : Matrix (Fin n) (Fin p) R) (f : R → K) :
    (n = p → ∃ T, (ofMatrix f M).transpose = ok T ∧ T = ofMatrix f M.transpose) ∧ (0 < n → 0 < p → n ≠ p → (ofMatrix f M).transpose = ub) ∧
    (n = 0 ∨ p = 0 → (ofMatrix f M).transpose = ok (ofMatrix f M)) := by
  refine ⟨?_, fun hn hp h => C20_violated hn hp h M f, ?_⟩
  · rintro rfl; exact ⟨_, transpose_ok M, rfl⟩
  · intro h
    unfold transpose ofSize
    show (create (n : ℤ) (p : ℤ) (0:K) >>= _) = _
    rw [create_nat, ok_bind]
    show (build ((n : ℤ).toNat) ((p : ℤ).toNat) _ >>= _) = _
    simp only [Int.toNat_natCast]
    rw [build_ok (fun i j => f (M i j)) (fun i j => by rcases h with rfl | rfl; exacts [i.elim0, j.elim0])]
    rfl

/-- **C161.** Filling from a list of rows × columns elements: position (i,j) receives element i * rows + j, if the matrix has at most as many rows as columns or only one row
(or no columns); otherwise the list is read past its end. -/
theorem C161_insert {n p : ℕ} (M : Matrix (Fin n) (Fin p) K) (l : List K) (hl : l.length = n * p) (hs : n * p < 2 ^ 31) :
    (n ≤ p ∨ n ≤ 1 ∨ p = 0 → ∃ N : Matrix (Fin n) (Fin p) K, (ofMatrix id M).insert l = ok (ofMatrix id N) ∧ ∀ (i : Fin n) (j : Fin p), l[(i : ℕ) * n + j]? = some (N i j)) ∧
    (1 < n → 0 < p → p < n → (ofMatrix id M).insert l = ub) := by
  have hs' : (n : ℤ) * p < 2 ^ 31 := by exact_mod_cast hs
  have hpos : (0 : ℤ) ≤ (n : ℤ) * p := by positivity
  have hhead : (ofMatrix id M).insert l = (do
      let v ← build n p fun i j =>
        match l[i * n + j]? with
        | none => ub
        | some x => ok x
      ok { ofMatrix id M with vals := v }) := by
    unfold Mat.insert
    rw [if_neg (by show ¬ ((n : ℤ) * p < _ ∨ _ ≤ (n : ℤ) * p); omega), if_pos (by show (l.length : ℤ) = (n : ℤ) * p; exact_mod_cast hl)]
    rfl
  constructor
  · intro h
    have hlt : ∀ (i : Fin n) (j : Fin p), (i : ℕ) * n + j < l.length := by
      intro i j
      rw [hl]
      have h1 := i.2; have h2 := j.2
      rcases h with h | h | h
      · calc (i : ℕ) * n + j ≤ (i : ℕ) * p + j := by gcongr
          _ < (i : ℕ) * p + p := by omega
          _ = ((i : ℕ) + 1) * p := by ring
          _ ≤ n * p := by gcongr; omega
      · have : n = 1 := by omega
        subst this
        have : (i : ℕ) = 0 := by omega
        rw [this]; omega
      · omega
    refine ⟨Matrix.of fun i j => l[(i : ℕ) * n + j]'(hlt i j), ?_, fun i j => List.getElem?_eq_getElem (hlt i j)⟩
    rw [hhead, build_ok (fun i j => l[(i : ℕ) * n + j]'(hlt i j)) (fun i j => by rw [List.getElem?_eq_getElem (hlt i j)]), ok_bind]
    rfl
  · intro h1 h0 h
    rw [hhead, build_ub (i := n - 1) (j := p - 1) (by omega) (by omega)]
    · rfl
    · intro i j _ _
      cases l[i * n + j]? with
      | none => exact .inl rfl
      | some x => exact .inr ⟨_, rfl⟩
    · rw [List.getElem?_eq_none]
      rw [hl]
      obtain ⟨m, rfl⟩ : ∃ m, n = m + 1 := ⟨n - 1, by omega⟩
      obtain ⟨q, rfl⟩ : ∃ q, p = q + 1 := ⟨p - 1, by omega⟩
      simp only [Nat.add_sub_cancel]
      have : m * (q + 1) + m ≤ m * (m + 1) := by
        calc m * (q + 1) + m = m * (q + 2) := by ring
          _ ≤ m * (m + 1) := Nat.mul_le_mul_left m (by omega)
      nlinarith

/-- **C161.** The list goes where it should for all lists exactly if the matrix is square, has at most one row, or no columns (element type with two different values). -/
theorem C161_insert_iff {n p : ℕ} (hs : n * p < 2 ^ 31) {x y : K} (hxy : x ≠ y) (M : Matrix (Fin n) (Fin p) K) :
    (∀ l : List K, l.length = n * p → ∃ N : Matrix (Fin n) (Fin p) K, (ofMatrix id M).insert l = ok (ofMatrix id N) ∧
      ∀ (i : Fin n) (j : Fin p), l[(i : ℕ) * p + j]? = some (N i j)) ↔ n = p ∨ n ≤ 1 ∨ p = 0 := by
  constructor
  · intro h
    by_contra hc
    have c1 : n ≠ p := fun e => hc (.inl e)
    have c2 : 1 < n := by by_contra e; exact hc (.inr (.inl (by omega)))
    have c3 : 0 < p := by by_contra e; exact hc (.inr (.inr (by omega)))
    rcases Nat.lt_or_gt_of_ne c1 with h1 | h1
    · -- the element n is not the element p
      have hp : n < n * p := by nlinarith
      have hpp : p < n * p := by nlinarith
      obtain ⟨N, e, hN⟩ := h ((List.range (n * p)).map fun q => if q = n then x else y) (by simp)
      obtain ⟨N', e', hN'⟩ := (C161_insert M ((List.range (n * p)).map fun q => if q = n then x else y) (by simp) hs).1 (.inl h1.le)
      have hcell := hN ⟨1, c2⟩ ⟨0, c3⟩
      have hcell' := hN' ⟨1, c2⟩ ⟨0, c3⟩
      rw [e, ok_inj] at e'
      have hc1 : (ofMatrix id N).at' ((1 : ℕ) : ℤ) ((0 : ℕ) : ℤ) = ok (N ⟨1, c2⟩ ⟨0, c3⟩) := at_ofMatrix id N ⟨1, c2⟩ ⟨0, c3⟩
      have hc2 : (ofMatrix id N').at' ((1 : ℕ) : ℤ) ((0 : ℕ) : ℤ) = ok (N' ⟨1, c2⟩ ⟨0, c3⟩) := at_ofMatrix id N' ⟨1, c2⟩ ⟨0, c3⟩
      rw [e', hc2, ok_inj] at hc1
      simp only [one_mul, add_zero] at hcell hcell'
      rw [List.getElem?_map, List.getElem?_range hpp] at hcell
      rw [List.getElem?_map, List.getElem?_range hp] at hcell'
      simp only [Option.map_some, Option.some.injEq, if_true] at hcell hcell'
      rw [if_neg (by omega)] at hcell
      exact hxy (by rw [hcell', hc1, ← hcell])
    · obtain ⟨N, e, -⟩ := h (List.replicate (n * p) x) (by simp)
      rw [(C161_insert M (List.replicate (n * p) x) (by simp) hs).2 c2 c3 h1] at e
      cases e
  · rintro (h | h | h) l hl
    · exact C22_insert_partial M l hl hs (.inl h)
    · exact C22_insert_partial M l hl hs (.inr h)
    · obtain ⟨N, e, -⟩ := (C161_insert M l hl hs).1 (.inr (.inr h))
      exact ⟨N, e, fun i j => by subst h; exact j.elim0⟩

/-- What `A + B`, or any other operation cell by cell, is for all shapes. -/
inductive Cells {n p n' p' : ℕ} (op : K → K → K) (A : Matrix (Fin n) (Fin p) K) (B : Matrix (Fin n') (Fin p') K) : Outcome (Mat K) → Prop
  /-- no cells -/
  | empty (h : n = 0 ∨ p = 0) : Cells op A B (ok (ofMatrix id A))
  /-- `B` covers `A`: cell by cell -/
  | cover (h1 : n ≤ n') (h2 : p ≤ p') : Cells op A B (ok (ofMatrix id (Matrix.of fun i j => op (A i j) (B (Fin.castLE h1 i) (Fin.castLE h2 j)))))
  /-- `B` is too small: the exception -/
  | small (h0 : 0 < n) (h0' : 0 < p) (h : n' = 0 ∨ p' < p ∧ p' ≤ 41 ∨ p ≤ p' ∧ n' < n ∧ n' ≤ 38) : Cells op A B (.throw ⟨.outOfRange, false⟩)
  /-- `B` is too small and large enough to overrun the message of the exception -/
  | overrun (h0 : 0 < n) (h0' : 0 < n') (h : p' < p ∧ 41 < p' ∨ 0 < p ∧ p ≤ p' ∧ n' < n ∧ 38 < n') : Cells op A B ub

/-- **C161.** Sums, differences and other operations cell by cell, for all shapes. -/
theorem C161_cells {n p n' p' : ℕ} (op : K → K → K) (A : Matrix (Fin n) (Fin p) K) (B : Matrix (Fin n') (Fin p') K) :
    Cells op A B ((ofMatrix id A).zipWith op (ofMatrix id B)) := by
  have hhead : (ofMatrix id A).zipWith op (ofMatrix id B) = (do
      let v ← build n p fun i j => do
        let a ← raw (ofMatrix id A).vals i j
        let b ← (ofMatrix id B).at' i j
        ok (op a b)
      ok { ofMatrix id (Matrix.of fun (_ : Fin n) (_ : Fin p) => (0 : K)) with vals := v }) := by
    unfold zipWith ofSize
    show (create (n : ℤ) (p : ℤ) (0:K) >>= _) = _
    rw [create_nat, ok_bind]
    rfl
  rw [hhead]
  set cell : ℕ → ℕ → Outcome K := fun i j => (do
        let a ← raw (ofMatrix id A).vals i j
        let b ← (ofMatrix id B).at' i j
        ok (op a b)) with hcell
  by_cases h0 : n = 0 ∨ p = 0
  · rw [build_ok (fun i j => A i j) (fun i j => by rcases h0 with rfl | rfl; exacts [i.elim0, j.elim0])]
    exact Cells.empty h0
  have hn : 0 < n := by omega
  have hp : 0 < p := by omega
  have good : ∀ i j, i < n → j < p → i < n' → j < p' → ∃ a, cell i j = ok a := by
    intro i j h1 h2 h3 h4
    simp only [hcell]
    rw [raw_ofMatrix' id A i j h1 h2, ok_bind, at_ofMatrix id B ⟨i, h3⟩ ⟨j, h4⟩]
    exact ⟨_, rfl⟩
  by_cases hc : n ≤ n' ∧ p ≤ p'
  · rw [build_ok (fun (i : Fin n) (j : Fin p) => op (A i j) (B (Fin.castLE hc.1 i) (Fin.castLE hc.2 j)))]
    · exact Cells.cover hc.1 hc.2
    · intro i j
      simp only [hcell]
      rw [raw_ofMatrix id A i j, ok_bind]
      have := at_ofMatrix id B (Fin.castLE hc.1 i) (Fin.castLE hc.2 j)
      simp only [Fin.val_castLE] at this
      rw [this]; rfl
  -- the first cell outside
  have fail : ∀ i j, i < n → j < p → (∀ j' < j, ∃ a, cell i j' = ok a) → (∀ i' < i, ∀ j' < p, ∃ a, cell i' j' = ok a) →
      (∀ e, cell i j = Outcome.throw e → build n p cell = Outcome.throw e) ∧ (cell i j = ub → build n p cell = ub) := by
    intro i j hi hj h1 h2
    have rows : ∀ i' < i, ∃ a, collect (cell i') p = ok a := by
      intro i' hi'
      have hx : ∀ b : Fin p, ∃ a, cell i' b = ok a := fun b => h2 i' hi' b b.2
      choose g hg using hx
      exact ⟨_, collect_ok g hg⟩
    constructor
    · intro e he
      have r1 := (collect_fail (f := cell i) hj h1 (by rw [he]; intro a h; cases h)).1 e he
      exact (collect_fail (f := fun i => collect (cell i) p) hi rows (by simp only [r1]; intro a h; cases h)).1 e r1
    · intro he
      have r1 := (collect_fail (f := cell i) hj h1 (by rw [he]; intro a h; cases h)).2 he
      exact (collect_fail (f := fun i => collect (cell i) p) hi rows (by simp only [r1]; intro a h; cases h)).2 r1
  have cellAt : ∀ i j, ∀ (h1 : i < n) (h2 : j < p), cell i j = ((ofMatrix id B).at' i j >>= fun b => ok (op (A ⟨i, h1⟩ ⟨j, h2⟩) b)) := by
    intro i j h1 h2
    simp only [hcell]
    rw [raw_ofMatrix' id A i j h1 h2, ok_bind]
    rfl
  have low : ∀ i j, n' ≤ i → (ofMatrix id B).at' (i : ℕ) (j : ℕ) = (if 38 < i then ub else .throw ⟨.outOfRange, false⟩ : Outcome K) := by
    intro i j h
    unfold at'
    rw [if_pos (by show (n' : ℤ) ≤ i; omega), rangeError]
    by_cases h38 : 38 < i
    · rw [if_pos (by omega), if_pos h38]
    · rw [if_neg (by omega), if_neg h38]
  have right : ∀ i j, i < n' → p' ≤ j → (ofMatrix id B).at' (i : ℕ) (j : ℕ) = (if 41 < j then ub else .throw ⟨.outOfRange, false⟩ : Outcome K) := by
    intro i j h h'
    unfold at'
    rw [if_neg (by show ¬ (n' : ℤ) ≤ i; omega), if_pos (by show (p' : ℤ) ≤ j; omega), rangeError]
    by_cases h41 : 41 < j
    · rw [if_pos (by omega), if_pos h41]
    · rw [if_neg (by omega), if_neg h41]
  by_cases hn' : n' = 0
  · have e : cell 0 0 = Outcome.throw ⟨.outOfRange, false⟩ := by
      rw [cellAt 0 0 hn hp, low 0 0 (by omega), if_neg (by norm_num)]; rfl
    rw [(fail 0 0 hn hp (by omega) (by omega)).1 _ e]
    exact Cells.small hn hp (.inl hn')
  by_cases hp' : p' < p
  · have before : ∀ j' < p', ∃ a, cell 0 j' = ok a := fun j' h => good 0 j' hn (by omega) (by omega) h
    by_cases h41 : 41 < p'
    · have e : cell 0 p' = ub := by rw [cellAt 0 p' hn hp', right 0 p' (by omega) le_rfl, if_pos h41]; rfl
      rw [(fail 0 p' hn hp' before (by omega)).2 e]
      exact Cells.overrun hn (by omega) (.inl ⟨hp', h41⟩)
    · have e : cell 0 p' = Outcome.throw ⟨.outOfRange, false⟩ := by rw [cellAt 0 p' hn hp', right 0 p' (by omega) le_rfl, if_neg h41]; rfl
      rw [(fail 0 p' hn hp' before (by omega)).1 _ e]
      exact Cells.small hn hp (.inr (.inl ⟨hp', by omega⟩))
  · have hlt : n' < n := by omega
    have before : ∀ i' < n', ∀ j' < p, ∃ a, cell i' j' = ok a := fun i' h j' h' => good i' j' (by omega) h' h (by omega)
    by_cases h38 : 38 < n'
    · have e : cell n' 0 = ub := by rw [cellAt n' 0 hlt hp, low n' 0 le_rfl, if_pos h38]; rfl
      rw [(fail n' 0 hlt hp (by omega) before).2 e]
      exact Cells.overrun hn (by omega) (.inr ⟨hp, by omega, hlt, h38⟩)
    · have e : cell n' 0 = Outcome.throw ⟨.outOfRange, false⟩ := by rw [cellAt n' 0 hlt hp, low n' 0 le_rfl, if_neg h38]; rfl
      rw [(fail n' 0 hlt hp (by omega) before).1 _ e]
      exact Cells.small hn hp (.inr (.inr ⟨by omega, hlt, by omega⟩))

/-- Cases: a 3×2 matrix times a 2×2 matrix has two rows; a 2×3 times a 3×1 is undefined; so is filling a 2×1 matrix. -/
example : letI := fieldElem ℚ; (ofMatrix id (!![1, 0; 0, 1; 1, 1] : Matrix (Fin 3) (Fin 2) ℚ)).mul (ofMatrix id exampleM) = ok (ofMatrix id exampleM) := by
  letI := fieldElem ℚ
  rw [(C161_mul (emb_id ℚ) _ _).2.1 (by norm_num) le_rfl]
  congr 2
  ext i j
  fin_cases i <;> fin_cases j <;> simp [Matrix.mul_apply, Fin.sum_univ_two, exampleM]
example (A : Matrix (Fin 2) (Fin 3) ℚ) (B : Matrix (Fin 3) (Fin 1) ℚ) : letI := fieldElem ℚ; (ofMatrix id A).mul (ofMatrix id B) = ub := by
  letI := fieldElem ℚ
  exact (C161_mul (emb_id ℚ) A B).2.2 (by norm_num) (by norm_num) (.inl (by norm_num))
example (A : Matrix (Fin 2) (Fin 3) ℚ) (v : Fin 3 → ℚ) : letI := fieldElem ℚ; (ofMatrix id A).mulVec (List.ofFn fun j => id (v j)) ≠ ok (List.ofFn fun i => id (A.mulVec v i)) := by
  letI := fieldElem ℚ
  rw [Ne, C161_mulVec_iff (emb_id ℚ) (by norm_num) (by norm_num)]
  norm_num
example (M : Matrix (Fin 2) (Fin 3) ℚ) : letI := fieldElem ℚ; (ofMatrix id M).transpose = ub :=
  letI := fieldElem ℚ
  (C161_transpose M id).2.1 (by norm_num) (by norm_num) (by norm_num)
example (M : Matrix (Fin 2) (Fin 1) ℚ) : letI := fieldElem ℚ; (ofMatrix id M).insert [5, 6] = ub :=
  letI := fieldElem ℚ
  (C161_insert M [5, 6] rfl (by norm_num)).2 (by norm_num) (by norm_num) (by norm_num)

end
