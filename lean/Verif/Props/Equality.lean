import Verif.Props.Gammas
import Verif.Props.Matrices
import Verif.WhitePoint

/-!
# Property C135: `==` and copies of white points, matrices and gamma curves
-/

open Outcome Fl Mat MatSpec

namespace EqualitySpec

/-- None of the six numbers of a white point is NaN. -/
def WhiteNumbers (w : WhitePoint) : Prop := ∀ v ∈ [w.tri.x, w.tri.y, w.tri.z, w.chrom.x, w.chrom.y, w.chrom.z], v ≠ .nan

/-- No cell of a matrix is NaN. -/
def MatrixNumbers (m : Mat Fl) : Prop := ∀ row ∈ m.vals, ∀ v ∈ row, v ≠ .nan

/-- The equal-energy white points: the only two presets with the same values. -/
def IsE (p : WhitePreset) : Prop := p = .E_2Degree ∨ p = .E_10Degree

/-- Two curves give the same results. -/
def SameCurve (st : PartStore) (a b : Gamma) : Prop := ∀ x, a.correct st x = b.correct st x ∧ a.inverse st x = b.inverse st x

end EqualitySpec

open EqualitySpec

/-! ## White points -/

/-- C135 for white points: `==` holds exactly between objects with the same six numbers, none of them NaN; equal white points cannot be told apart. -/
theorem C135_white_point (a b : WhitePoint) : a.eq b ↔ a = b ∧ WhiteNumbers a := by
  obtain ⟨⟨a1, a2, a3⟩, ⟨a4, a5, a6⟩⟩ := a
  obtain ⟨⟨b1, b2, b3⟩, ⟨b4, b5, b6⟩⟩ := b
  simp only [WhitePoint.eq, WhitePoint.eqV3, feq, WhiteNumbers, WhitePoint.mk.injEq, V3.mk.injEq, List.mem_cons, List.not_mem_nil, or_false, forall_eq_or_imp, forall_eq]
  tauto

/-- C135: a copy has the same numbers; it equals the original unless one of them is NaN. -/
theorem C135_white_copy (a : WhitePoint) : a.copy.tri = a.tri ∧ a.copy.chrom = a.chrom ∧ (a.copy.eq a ↔ WhiteNumbers a) := by
  refine ⟨rfl, rfl, ?_⟩
  rw [C135_white_point]
  exact ⟨fun h => h.2, fun h => ⟨rfl, h⟩⟩

/-- X and Z of the presets in units of 1e-5. -/
def EqualitySpec.keyOf : WhitePreset → ℕ × ℕ
  | .D50_2Degree => (96420, 82510) | .D55_2Degree => (95680, 92140) | .D65_2Degree => (95040, 108880) | .D75_2Degree => (94970, 122640)
  | .A_2Degree => (10985, 35580) | .B_2Degree => (99090, 85310) | .C_2Degree => (98070, 118230) | .E_2Degree => (10000, 10000)
  | .F1_2Degree => (92830, 103660) | .F2_2Degree => (99180, 67390) | .F3_2Degree => (10375, 49860) | .F4_2Degree => (10914, 38810)
  | .F5_2Degree => (90870, 98720) | .F6_2Degree => (97300, 60190) | .F7_2Degree => (95040, 108750) | .F8_2Degree => (96410, 82330)
  | .F9_2Degree => (10036, 67860) | .F10_2Degree => (96170, 81710) | .F11_2Degree => (10096, 64370) | .F12_2Degree => (10804, 39220)
  | .D50_10Degree => (96720, 81420) | .D55_10Degree => (95790, 90920) | .D65_10Degree => (94810, 107300) | .D75_10Degree => (94410, 120640)
  | .A_10Degree => (11114, 35200) | .B_10Degree => (99170, 84349) | .C_10Degree => (97280, 116140) | .E_10Degree => (10000, 10000)
  | .F1_10Degree => (94790, 103190) | .F2_10Degree => (10328, 69020) | .F3_10Degree => (10896, 51960) | .F4_10Degree => (11496, 40960)
  | .F5_10Degree => (93360, 98630) | .F6_10Degree => (10214, 62070) | .F7_10Degree => (95790, 107680) | .F8_10Degree => (97110, 81130)
  | .F9_10Degree => (10211, 67820) | .F10_10Degree => (99000, 83130) | .F11_10Degree => (10386, 65620) | .F12_10Degree => (11142, 40350)

theorem EqualitySpec.key_literals (p : WhitePreset) : p.literals.1 = ((keyOf p).1 : ℝ) / 100000 ∧ p.literals.2.2.1 = ((keyOf p).2 : ℝ) / 100000 := by
  cases p <;> constructor <;> norm_num [WhitePreset.literals, keyOf]

theorem EqualitySpec.key_inj (p q : WhitePreset) (h : keyOf p = keyOf q) : p = q ∨ IsE p ∧ IsE q := by
  unfold IsE
  cases p <;> cases q <;> first | exact Or.inl rfl | exact absurd h (by decide) | (right; simp)

/-- C135: two preset white points are equal only if they are the same preset, or the equal-energy white for both observers. -/
theorem C135_white_presets [FloatModel] [ExactModel] (p q : WhitePreset) : p.create.eq q.create ↔ p = q ∨ IsE p ∧ IsE q := by
  have num : ∀ p : WhitePreset, WhiteNumbers p.create := by
    intro p
    simp [WhiteNumbers, WhitePreset.create, WhitePoint.make, Fl.lit, sub_exact]
  constructor
  · rw [C135_white_point]
    rintro ⟨h, -⟩
    apply key_inj
    have h1 : p.create.tri.x = q.create.tri.x := by rw [h]
    have h2 : p.create.tri.z = q.create.tri.z := by rw [h]
    simp only [WhitePreset.create, WhitePoint.make, Fl.lit, rnd_exact, fin_inj] at h1 h2
    rw [(key_literals p).1, (key_literals q).1] at h1
    rw [(key_literals p).2, (key_literals q).2] at h2
    have e1 : ((keyOf p).1 : ℝ) = (keyOf q).1 := by linarith
    have e2 : ((keyOf p).2 : ℝ) = (keyOf q).2 := by linarith
    exact Prod.ext (by exact_mod_cast e1) (by exact_mod_cast e2)
  · rintro (rfl | ⟨h1, h2⟩)
    · exact (C135_white_point _ _).mpr ⟨rfl, num _⟩
    · have : p.create = q.create := by
        rcases h1 with rfl | rfl <;> rcases h2 with rfl | rfl <;> rfl
      exact (C135_white_point _ _).mpr ⟨this, num _⟩

/-! ## Matrices -/

namespace Mat

theorem sameList_iff [FloatModel] : ∀ l l' : List Fl, sameList l l' ↔ l = l' ∧ ∀ v ∈ l, v ≠ .nan
  | [], [] => by simp [sameList]
  | [], _ :: _ => by simp [sameList]
  | _ :: _, [] => by simp [sameList]
  | a :: l, b :: l' => by
    have e : Elem.same a b ↔ a = b ∧ a ≠ .nan := Iff.rfl
    simp only [sameList, sameList_iff l l', e, List.cons.injEq, List.mem_cons, forall_eq_or_imp]
    tauto

theorem sameVals_iff [FloatModel] : ∀ l l' : List (List Fl), sameVals l l' ↔ l = l' ∧ ∀ row ∈ l, ∀ v ∈ row, v ≠ .nan
  | [], [] => by simp [sameVals]
  | [], _ :: _ => by simp [sameVals]
  | _ :: _, [] => by simp [sameVals]
  | a :: l, b :: l' => by
    simp only [sameVals, sameList_iff, sameVals_iff l l', List.cons.injEq, List.mem_cons, forall_eq_or_imp]
    tauto

end Mat

/-- C135 for matrices: `==` holds exactly between matrices of the same shape and the same cells, none of them NaN; equal matrices cannot be told apart by any operation. -/
theorem C135_matrix [FloatModel] (a b : Mat Fl) : a.eq b ↔ a = b ∧ MatrixNumbers a := by
  obtain ⟨r, c, v⟩ := a
  obtain ⟨r', c', v'⟩ := b
  simp only [Mat.eq, Mat.sameVals_iff, MatrixNumbers, Mat.mk.injEq]
  tauto

/-- C135 for the objects that store mathematical matrices: `==` compares sizes and cells. -/
theorem C135_matrix_cells [FloatModel] {n p n' p' : ℕ} (A : Matrix (Fin n) (Fin p) ℝ) (B : Matrix (Fin n') (Fin p') ℝ) :
    (ofMatrix fin A).eq (ofMatrix fin B) ↔ n = n' ∧ p = p' ∧ ∀ i j i' j', i.val = i'.val → j.val = j'.val → A i j = B i' j' := by
  rw [C135_matrix]
  constructor
  · rintro ⟨h, -⟩
    simp only [ofMatrix, Mat.mk.injEq, Nat.cast_inj] at h
    obtain ⟨rfl, rfl, hv⟩ := h
    refine ⟨rfl, rfl, fun i j i' j' hi hj => ?_⟩
    obtain rfl := Fin.ext hi
    obtain rfl := Fin.ext hj
    have h1 := congrFun (List.ofFn_injective hv) i
    have h2 := congrFun (List.ofFn_injective h1) j
    simpa using h2
  · rintro ⟨rfl, rfl, h⟩
    refine ⟨?_, ?_⟩
    · have : A = B := by ext i j; exact h i j i j rfl rfl
      rw [this]
    · intro row hr v hv
      simp only [ofMatrix, List.mem_ofFn] at hr
      obtain ⟨i, rfl⟩ := hr
      obtain ⟨j, rfl⟩ := List.mem_ofFn.mp hv
      simp

/-- C135: copying or assigning a matrix of numbers gives an equal one. -/
theorem C135_matrix_copy [FloatModel] {n p : ℕ} (A : Matrix (Fin n) (Fin p) ℝ) (m : Mat Fl) :
    (ofMatrix fin A).copy.eq (ofMatrix fin A) ∧ ∃ m', m.assign (ofMatrix fin A) = ok m' ∧ m'.eq (ofMatrix fin A) := by
  have num : MatrixNumbers (ofMatrix fin A) := by
    intro row hr v hv
    simp only [ofMatrix, List.mem_ofFn] at hr
    obtain ⟨i, rfl⟩ := hr
    obtain ⟨j, rfl⟩ := List.mem_ofFn.mp hv
    simp
  refine ⟨(C135_matrix _ _).mpr ⟨rfl, num⟩, ofMatrix fin A, ?_, (C135_matrix _ _).mpr ⟨rfl, num⟩⟩
  simp only [Mat.assign]
  rw [show (ofMatrix fin A).rows.toNat = n from rfl, show (ofMatrix fin A).cols.toNat = p from rfl,
    Mat.build_ok (fun i j => fin (A i j)) fun i j => C21_inside A fin i j]
  rfl

/-! ## Gamma curves -/

section
variable [StdSort]

omit [StdSort] in
/-- C135 for gamma curves: equal curves are stored with the same parts in the same order and give the same results, whatever happens to the parts. -/
theorem C135_gamma (a b : Gamma) (h : a.eq b) : a = b ∧ ∀ st, SameCurve st a b := by
  obtain ⟨p, q⟩ := a
  obtain ⟨p', q'⟩ := b
  obtain ⟨rfl, rfl⟩ := h
  exact ⟨rfl, fun st x => ⟨rfl, rfl⟩⟩

/-- C135: a copy or an assignment of a curve whose parts have different borders is equal to the original. -/
theorem C135_gamma_copy (st : PartStore) (hn : ∀ p, (st p).border ≠ .nan) (g a : Gamma) (h : GammaReach st g)
    (hd : g.parts.Pairwise fun x y => ∀ p q, x = some p → y = some q → (st p).border ≠ (st q).border)
    (hd' : g.inv.Pairwise fun x y => ∀ p q, x = some p → y = some q → (st p).border ≠ (st q).border) :
    ∃ c, Gamma.copy st g = ok c ∧ c.eq g ∧ Gamma.assign st a g = ok c := by
  obtain ⟨o1, o2⟩ := C26_ordered_partial st hn g h
  have key : ∀ l : List (Option Nat), Ascending st l → (l.Pairwise fun x y => ∀ p q, x = some p → y = some q → (st p).border ≠ (st q).border) → Gamma.sort st l = ok l := by
    intro l h1 h2
    by_cases hl : l.length < 2
    · simp [Gamma.sort, hl]
    · have hnone : none ∉ l := by
        intro hm
        obtain ⟨s, t, rfl⟩ := List.append_of_mem hm
        rw [Ascending, List.pairwise_append] at h1
        rcases s with _ | ⟨x, s⟩
        · rcases t with _ | ⟨y, t⟩
          · simp at hl
          · obtain ⟨p, q, e, -⟩ := (List.pairwise_cons.mp h1.2.1).1 y (by simp)
            simp at e
        · obtain ⟨p, q, -, e, -⟩ := h1.2.2 x (by simp) none (by simp)
          simp at e
      obtain ⟨ps, rfl⟩ : ∃ ps : List Nat, l = ps.map some := by
        rcases hq : Gamma.pointers l with _ | ps
        · exact absurd (Gamma.pointers_eq_none.mp hq) hnone
        · exact ⟨ps, Gamma.pointers_eq_some.mp hq⟩
      apply Gamma.sort_of_strict _ fun p _ => hn p
      rw [Ascending, List.pairwise_map] at h1
      rw [List.pairwise_map] at h2
      refine (h1.and h2).imp ?_
      rintro x y ⟨⟨p, q, e1, e2, e3⟩, hne⟩
      obtain rfl := Option.some_inj.mp e1
      obtain rfl := Option.some_inj.mp e2
      have hne := hne x y rfl rfl
      have hx := hn x
      have hy := hn y
      clear hnone hl h1 h2 e1 e2 o1 o2 hd hd' h
      revert e3 hne hx hy
      generalize (st x).border = u
      generalize (st y).border = v
      have lt : ∀ a b : Fl, (a < b) = Fl.lt a b := fun _ _ => rfl
      cases u <;> cases v <;> simp [lt, Fl.lt]
      exact lt_of_le_of_ne
  refine ⟨g, ?_, ⟨rfl, rfl⟩, ?_⟩ <;> simp [Gamma.copy, Gamma.assign, Gamma.construct, key _ o1 hd, key _ o2 hd']

variable [FloatModel] [ExactModel]

/-- The value of a gamma preset: the addresses of its parts, in the order of allocation. -/
theorem GammaPreset.create_shape (p : GammaPreset) (st : PartStore) (next : Nat) :
    (p.create st next).2 = ok ⟨GammaPreset.addresses next p.parts.length, GammaPreset.addresses (next + p.parts.length) p.invParts.length⟩ := by
  set st' := GammaPreset.allocParts st next (p.parts ++ p.invParts) with hst
  have h1 : (List.range' next p.parts.length).map st' = p.parts := by
    refine Eq.trans ?_ (GammaPreset.allocParts_map p.parts st next)
    rw [List.map_inj_left]
    intro a ha
    rw [hst, GammaPreset.allocParts_append, GammaPreset.allocParts_before]
    simp only [List.mem_range'_1] at ha; omega
  have h2 : (List.range' (next + p.parts.length) p.invParts.length).map st' = p.invParts := by
    rw [hst, GammaPreset.allocParts_append]; exact GammaPreset.allocParts_map _ _ _
  show Gamma.construct st' _ _ = _
  have e1 : Gamma.sort st' (GammaPreset.addresses next p.parts.length) = ok (GammaPreset.addresses next p.parts.length) := by
    apply Gamma.sort_of_strict
    · have := p.parts_strict.1; rw [← h1, List.pairwise_map] at this; simpa using this
    · intro q hq; apply p.parts_strict.2; rw [← h1]; exact List.mem_map_of_mem (by simpa using hq)
  have e2 : Gamma.sort st' (GammaPreset.addresses (next + p.parts.length) p.invParts.length) = ok (GammaPreset.addresses (next + p.parts.length) p.invParts.length) := by
    apply Gamma.sort_of_strict
    · have := p.invParts_strict.1; rw [← h2, List.pairwise_map] at this; simpa using this
    · intro q hq; apply p.invParts_strict.2; rw [← h2]; exact List.mem_map_of_mem (by simpa using hq)
  simp only [Gamma.construct, e1, e2, ok_bind]

/-- C135 fails for two gamma presets of the same kind: they give the same results, but `==` says they differ, because it compares the addresses of the parts. -/
theorem C135_gamma_violated (p : GammaPreset) (st : PartStore) (n m : Nat) (hm : n + (p.parts ++ p.invParts).length ≤ m) :
    ∃ g g', (p.create st n).2 = ok g ∧ (p.create (p.create st n).1 m).2 = ok g' ∧ SameCurve (p.create (p.create st n).1 m).1 g g' ∧ ¬ g.eq g' := by
  have hlen : 0 < p.parts.length := by cases p <;> simp [GammaPreset.parts]
  obtain ⟨g', hg', ev'⟩ := preset_curves p (p.create st n).1 m
  obtain ⟨g, hg, ev⟩ := preset_curves p st n
  refine ⟨g, g', hg, hg', ?_, ?_⟩
  · have hold : ∀ q < m, (p.create (p.create st n).1 m).1 q = (p.create st n).1 q := fun q hq => GammaPreset.allocParts_before _ _ _ _ hq
    have pick_congr : ∀ (k l : Nat) (x : Fl), k + l ≤ m → Gamma.pick (p.create (p.create st n).1 m).1 (GammaPreset.addresses k l) x = Gamma.pick (p.create st n).1 (GammaPreset.addresses k l) x := by
      intro k l x hkl
      rw [GammaPreset.addresses, GammaPreset.pick_eq, GammaPreset.pick_eq]
      congr 1
      rw [List.map_inj_left]
      intro a ha
      simp only [List.mem_range'_1] at ha
      exact hold a (by omega)
    rw [GammaPreset.create_shape] at hg
    obtain rfl := ok_inj.mp hg
    rw [List.length_append] at hm
    intro x
    rw [(ev' x).1, (ev' x).2, ← (ev x).1, ← (ev x).2]
    exact ⟨pick_congr _ _ _ (by omega), pick_congr _ _ _ (by omega)⟩
  · rw [GammaPreset.create_shape] at hg hg'
    obtain rfl := ok_inj.mp hg
    obtain rfl := ok_inj.mp hg'
    rintro ⟨h, -⟩
    simp only [GammaPreset.addresses] at h
    rw [List.map_inj_right (fun _ _ h => Option.some_inj.mp h)] at h
    have : (List.range' n p.parts.length).head? = (List.range' m p.parts.length).head? := by rw [h]
    rw [List.head?_range', List.head?_range', if_neg hlen.ne', if_neg hlen.ne', Option.some_inj] at this
    rw [List.length_append] at hm
    omega

end

/-- Case: D65 and its copy are equal, D65 for the two observers differ; the two equal-energy whites are equal. -/
example [FloatModel] [ExactModel] : (WhitePreset.D65_2Degree.create).copy.eq WhitePreset.D65_2Degree.create ∧ ¬ (WhitePreset.D65_2Degree.create).eq WhitePreset.D65_10Degree.create ∧
    (WhitePreset.E_2Degree.create).eq WhitePreset.E_10Degree.create := by
  refine ⟨(C135_white_presets .D65_2Degree .D65_2Degree).mpr (Or.inl rfl), ?_, (C135_white_presets _ _).mpr (Or.inr ⟨Or.inl rfl, Or.inr rfl⟩)⟩
  rw [C135_white_presets]
  simp [IsE]

/-- Case: matrices of the same four numbers in another shape are different. -/
example [FloatModel] : ¬ (ofMatrix fin !![1, 2, 3, 4]).eq (ofMatrix fin !![1, 2; 3, 4]) ∧ (ofMatrix fin !![1, 2; 3, 4]).eq (ofMatrix fin !![1, 2; 3, 4]) := by
  rw [C135_matrix_cells, C135_matrix_cells]
  refine ⟨by norm_num, rfl, rfl, ?_⟩
  intro i j i' j' h1 h2
  rw [Fin.ext h1, Fin.ext h2]

/-- Case: a curve of two parts and its copy. -/
example [StdSort] : ∃ g c, GammaReach (fun p => ⟨none, fin p⟩) g ∧ g.parts.length = 2 ∧ Gamma.copy (fun p => ⟨none, fin p⟩) g = ok c ∧ c.eq g := by
  obtain ⟨g, hg, hp, hi, -⟩ := C26_operations (fun p => ⟨none, fin p⟩) (by simp) [2, 1] []
  have hnd : g.parts.Nodup := hp.nodup_iff.mpr (by simp)
  obtain ⟨c, h1, h2, -⟩ := C135_gamma_copy (fun p => ⟨none, fin p⟩) (by simp) g g (.construct hg)
    (hnd.imp fun {x y} hxy p q e1 e2 h => hxy (by rw [e1, e2]; simp only [fin_inj, Nat.cast_inj] at h; rw [h]))
    (by rw [List.perm_nil.mp hi]; exact List.Pairwise.nil)
  exact ⟨g, c, .construct hg, by simpa using hp.length_eq, h1, h2⟩
