import Verif.Props.Adaptations5

/-!
# Property C155: the algebra of chromatic adaptation

Colours of class XYZ in exact arithmetic.  Intensities can be scaled before or after the adaptation, mixtures can be taken before or after it, and two adaptations in a row are one.
-/

open Outcome Fl Prog ObjectSpec ConvSpec CombineSpec AdaptSpec Matrix

namespace AdaptSpec

/-- Both white points give light and positive cone responses. -/
structure Lit (m : AdaptMatrix) (s d : Fin 3 → ℝ) : Prop where
  source : ∀ j, 0 < (cone m).mulVec s j
  target : ∀ j, 0 < (cone m).mulVec d j
  light : 0 < s 1
  light' : 0 < d 1

/-- All components are strictly inside the range, so nothing was cut off. -/
def Inside (y : Fin 3 → ℝ) : Prop := ∀ j, 0 < y j ∧ y j < 100

theorem clip_inside {v : ℝ} (h0 : 0 < clip v) (h1 : clip v < 100) : clip v = v := by
  unfold clip at *
  rcases lt_max_iff.mp h0 with h | h
  · rw [max_eq_left h.le] at h1 ⊢
    rcases min_lt_iff.mp h1 with g | g
    · exact min_eq_left g.le
    · exact absurd g (lt_irrefl _)
  · exact absurd h (lt_irrefl _)

section
variable [FloatModel]

/-- The result of an adaptation is determined. -/
theorem adapts_unique {q : Method} {h : Heap} {i t : Nat} {al al' : Fl} {y z : Fin 3 → ℝ} (hy : Adapts q h i t al y) (hz : Adapts q h i t al' z) : y = z := by
  obtain ⟨k, r, h1, e1, e2, -, e3, -⟩ := hy 0
  obtain ⟨k', r', h2, f1, f2, -, f3, -⟩ := hz 0
  rw [e1] at f1
  simp only [Prod.mk.injEq, Outcome.ok.injEq, Option.some.injEq] at f1
  obtain ⟨rfl, rfl⟩ := f1
  rw [e2] at f2
  obtain rfl := Option.some.inj f2
  have := e3.comps.symm.trans f3.comps
  simp only [List.cons.injEq, fin.injEq, and_true] at this
  funext j
  fin_cases j
  · exact this.1
  · exact this.2.1
  · exact this.2.2

variable [ExactModel]

/-- The methods that do not divide by the luminance of the colour are linear up to the limits of the range. -/
theorem linear_run {q : Method} (hq : q.Admissible) (hq' : ¬ q.Normalises) {s d : Fin 3 → ℝ} (hl : Lit q.matrix s d) :
    ∃ A : Matrix (Fin 3) (Fin 3) ℝ, ∀ {h : Heap} {i : Nat} {c : Color} {sp u t : Nat} {x : Fin 3 → ℝ}, Setting h i .xyz c sp u t → IsXyz c x → Whites h u t s d →
      Adapts q h i t c.alpha (fun j => clip (A.mulVec x j)) := by
  have hn : ∀ j, (cone q.matrix).mulVec s j ≠ 0 := fun j => (hl.source j).ne'
  rw [cone_eq] at hn
  have hd1 := hl.light'.ne'
  cases hq with
  | simple m => exact ⟨Adapt.ideal m s d, fun hs hx hw => simple_run hs hx hw (by rw [cone_eq]; exact hn)⟩
  | bradford => exact absurd trivial hq'
  | cmccat97 f la h => exact absurd trivial hq'
  | cmccat2000 f la lr hlr =>
    refine ⟨(max 0 (min 1 (f * (0.08 * Real.logb 10 (0.5 * (la + lr)) + 0.76 - 0.45 * ((la - lr) / (la + lr))))) * (s 1 / d 1)) • Adapt.ideal .cmccat2000 s d +
      (1 - max 0 (min 1 (f * (0.08 * Real.logb 10 (0.5 * (la + lr)) + 0.76 - 0.45 * ((la - lr) / (la + lr)))))) •
        (Adapt.square AdaptMatrix.cmccat2000.inverseValues * Adapt.square AdaptMatrix.cmccat2000.values), fun {h i c sp u t x} hs hx hw => core_run hs hx hw ?_⟩
    refine (Adapt.cmccat2000Core_exact f la lr _ (Adapt.degree2000_fin f la lr hlr) x s d [fin (x 0), fin (x 1), fin (x 2)] hn hd1).trans ?_
    simp only [Matrix.add_mulVec, Matrix.smul_mulVec, ← Matrix.mulVec_mulVec, Pi.add_apply, Pi.smul_apply, smul_eq_mul]
  | cat02 f la =>
    refine ⟨max 0 (min 1 (f * (1 - 1 / 3.6 * Real.exp ((-la - 42) / 92)))) • Adapt.ideal .cat02 s d +
      (1 - max 0 (min 1 (f * (1 - 1 / 3.6 * Real.exp ((-la - 42) / 92))))) • (Adapt.square AdaptMatrix.cat02.inverseValues * Adapt.square AdaptMatrix.cat02.values),
      fun {h i c sp u t x} hs hx hw => core_run hs hx hw ?_⟩
    refine (Adapt.cat02Core_exact f la _ (Adapt.degree02_fin f la) x s d [fin (x 0), fin (x 1), fin (x 2)] hn).trans ?_
    simp only [Matrix.add_mulVec, Matrix.smul_mulVec, ← Matrix.mulVec_mulVec, Pi.add_apply, Pi.smul_apply, smul_eq_mul]

/-- The others are homogeneous. -/
theorem homogeneous_run {q : Method} (hq : q.Admissible) (hq' : q.Normalises) {s d : Fin 3 → ℝ} (hl : Lit q.matrix s d) :
    ∃ F : (Fin 3 → ℝ) → Fin 3 → ℝ, (∀ (k : ℝ) (x : Fin 3 → ℝ), k ≠ 0 → F (k • x) = k • F x) ∧ ∀ {h : Heap} {i : Nat} {c : Color} {sp u t : Nat} {x : Fin 3 → ℝ}, Setting h i .xyz c sp u t →
      IsXyz c x → Whites h u t s d → x 1 ≠ 0 → Adapts q h i t c.alpha (fun j => clip (F x j)) := by
  have hn : ∀ j, (cone q.matrix).mulVec s j ≠ 0 := fun j => (hl.source j).ne'
  have p1 := div_pos (hl.source 2) hl.light
  have p2 := div_pos (hl.target 2) hl.light'
  rw [cone_eq] at hn p1 p2
  have hs1 := hl.light.ne'
  have hd1 := hl.light'.ne'
  have quot : ∀ (M : Matrix (Fin 3) (Fin 3) ℝ) (k : ℝ) (x : Fin 3 → ℝ) (j : Fin 3), k ≠ 0 → M.mulVec (k • x) j / (k • x) 1 = M.mulVec x j / x 1 := fun M k x j hk => by
    rw [Matrix.mulVec_smul, Pi.smul_apply, Pi.smul_apply, smul_eq_mul, smul_eq_mul, mul_div_mul_left _ _ hk]
  cases hq with
  | simple m => exact hq'.elim
  | cmccat2000 f la lr hlr => exact hq'.elim
  | cat02 f la => exact hq'.elim
  | bradford =>
    refine ⟨fun x => (Adapt.square AdaptMatrix.bradford.inverseValues).mulVec (Adapt.bradfordVec (Adapt.square AdaptMatrix.bradford.values) x s d (x 1)), fun k x hk => ?_,
      fun {h i c sp u t x} hs hx hw h1 => core_run (q := .bradford) hs hx hw (Adapt.bradfordCore_exact x s d (fin (x 0)) (x 1) [fin (x 2)] h1 hs1 hd1 hn (div_pos p1 p2))⟩
    rw [← Matrix.mulVec_smul]
    congr 1
    unfold Adapt.bradfordVec
    simp only [quot _ _ _ _ hk]
    funext j
    fin_cases j <;> simp <;> ring
  | cmccat97 f la hla =>
    refine ⟨fun x => (Adapt.square AdaptMatrix.cmccat97.inverseValues).mulVec (Adapt.cmccat97Vec (Adapt.square AdaptMatrix.cmccat97.values) x s d (x 1)
      (max 0 (min 1 (f - f / (1 + 2 * la ^ (0.25 : ℝ) + la ^ (2 : ℝ) / 300))))), fun k x hk => ?_,
      fun {h i c sp u t x} hs hx hw h1 => core_run (q := .cmccat97 (fin f) (fin la)) hs hx hw
        (Adapt.cmccat97Core_exact f la _ (Adapt.degree97_fin f la hla) x s d (fin (x 0)) (x 1) [fin (x 2)] h1 hs1 hd1 hn p1 p2)⟩
    rw [← Matrix.mulVec_smul]
    congr 1
    unfold Adapt.cmccat97Vec
    simp only [quot _ _ _ _ hk]
    funext j
    fin_cases j <;> simp <;> ring

end

end AdaptSpec

section exact
variable [FloatModel] [ExactModel]

/-- C155, intensities: with every method, a colour `k` times as intense adapts to a colour `k` times as intense, limited to the range. -/
theorem C155_scale (q : Method) (hq : q.Admissible) (h : Heap) (i i' : Nat) (c c' : Color) (sp sp' u t : Nat) (x y s d : Fin 3 → ℝ) (k : ℝ) (hk : 0 < k) (hs : Setting h i .xyz c sp u t)
    (hs' : Setting h i' .xyz c' sp' u t) (hx : IsXyz c x) (hx' : IsXyz c' fun j => k * x j) (hw : Whites h u t s d) (hl : Lit q.matrix s d) (h1 : x 1 ≠ 0)
    (hy : Adapts q h i t c.alpha y) (hi : Inside y) : Adapts q h i' t c'.alpha fun j => clip (k * y j) := by
  by_cases hn : q.Normalises
  · obtain ⟨F, hF, run⟩ := homogeneous_run hq hn hl
    obtain rfl := adapts_unique hy (run hs hx hw h1)
    have := run hs' hx' hw (by positivity)
    have e : F (fun j => k * x j) = k • F x := hF k x hk.ne'
    rw [e] at this
    have e2 : (fun j => clip ((k • F x) j)) = fun j => clip (k * clip (F x j)) := by
      funext j
      rw [Pi.smul_apply, smul_eq_mul, clip_inside (hi j).1 (hi j).2]
    rwa [e2] at this
  · obtain ⟨A, run⟩ := linear_run hq hn hl
    obtain rfl := adapts_unique hy (run hs hx hw)
    have := run hs' hx' hw
    have e : (fun j => k * x j) = k • x := rfl
    have e2 : (fun j => clip (A.mulVec (fun j => k * x j) j)) = fun j => clip (k * clip (A.mulVec x j)) := by
      funext j
      rw [e, Matrix.mulVec_smul, Pi.smul_apply, smul_eq_mul, clip_inside (hi j).1 (hi j).2]
    rwa [e2] at this

/-- C155, combinations: the methods that do not divide by the luminance of the colour (the simplified ones, CAT02, CMCCAT2000) take the combination `a * x + b * x'` of two colours to the same
combination of the adapted colours, limited to the range. -/
theorem C155_linear_partial (q : Method) (hq : q.Admissible) (hq' : ¬ q.Normalises) (h : Heap) (i i' j : Nat) (c c' e : Color) (sp sp' sq u t : Nat) (x x' y y' s d : Fin 3 → ℝ) (a b : ℝ)
    (hs : Setting h i .xyz c sp u t) (hs' : Setting h i' .xyz c' sp' u t) (he : Setting h j .xyz e sq u t) (hx : IsXyz c x) (hx' : IsXyz c' x') (hxe : IsXyz e fun l => a * x l + b * x' l)
    (hw : Whites h u t s d) (hl : Lit q.matrix s d) (hy : Adapts q h i t c.alpha y) (hy' : Adapts q h i' t c'.alpha y') (hi : Inside y) (hi' : Inside y') :
    Adapts q h j t e.alpha fun l => clip (a * y l + b * y' l) := by
  obtain ⟨A, run⟩ := linear_run hq hq' hl
  obtain rfl := adapts_unique hy (run hs hx hw)
  obtain rfl := adapts_unique hy' (run hs' hx' hw)
  have := run he hxe hw
  have e : (fun l => a * x l + b * x' l) = a • x + b • x' := rfl
  have e2 : (fun l => clip (A.mulVec (fun l => a * x l + b * x' l) l)) = fun l => clip (a * clip (A.mulVec x l) + b * clip (A.mulVec x' l)) := by
    funext l
    rw [e, Matrix.mulVec_add, Matrix.mulVec_smul, Matrix.mulVec_smul, Pi.add_apply, Pi.smul_apply, Pi.smul_apply, smul_eq_mul, smul_eq_mul, clip_inside (hi l).1 (hi l).2,
      clip_inside (hi' l).1 (hi' l).2]
  rwa [e2] at this

/-- C155, mixtures: adapting a mixture of two colours gives the mixture of the adapted colours, with nothing cut off. -/
theorem C155_mixture_partial (q : Method) (hq : q.Admissible) (hq' : ¬ q.Normalises) (h : Heap) (i i' j : Nat) (c c' e : Color) (sp sp' sq u t : Nat) (x x' y y' s d : Fin 3 → ℝ) (w : ℝ)
    (h0 : 0 ≤ w) (h1 : w ≤ 1) (hs : Setting h i .xyz c sp u t) (hs' : Setting h i' .xyz c' sp' u t) (he : Setting h j .xyz e sq u t) (hx : IsXyz c x) (hx' : IsXyz c' x')
    (hxe : IsXyz e fun l => w * x l + (1 - w) * x' l) (hw : Whites h u t s d) (hl : Lit q.matrix s d) (hy : Adapts q h i t c.alpha y) (hy' : Adapts q h i' t c'.alpha y') (hi : Inside y)
    (hi' : Inside y') : Adapts q h j t e.alpha fun l => w * y l + (1 - w) * y' l := by
  have := C155_linear_partial q hq hq' h i i' j c c' e sp sp' sq u t x x' y y' s d w (1 - w) hs hs' he hx hx' hxe hw hl hy hy' hi hi'
  have e2 : (fun l => clip (w * y l + (1 - w) * y' l)) = fun l => w * y l + (1 - w) * y' l := by
    funext l
    obtain ⟨a0, a1⟩ := hi l
    obtain ⟨b0, b1⟩ := hi' l
    exact clip_id (by nlinarith) (by nlinarith)
  rwa [e2] at this

omit [FloatModel] [ExactModel] in
theorem AdaptSpec.published_chain (m : AdaptMatrix) (s d e x : Fin 3 → ℝ) (hd : ∀ j, (cone m).mulVec d j ≠ 0) : published m d e (published m s d x) = published m s e x := by
  unfold published
  congr 1
  funext i
  rw [Matrix.mulVec_mulVec, Matrix.mul_nonsing_inv _ (cone_unit m), Matrix.one_mulVec]
  have := hd i
  field_simp

omit [FloatModel] [ExactModel] in
theorem AdaptSpec.norm_nonneg {m : AdaptMatrix} {d e : Fin 3 → ℝ} {K : ℝ} (hnd : ∀ j, (cone m).mulVec d j ≠ 0) (hK : ∀ v, size (published m d e v) ≤ K * size v) : 0 ≤ K := by
  by_contra hneg
  have h1 := hK d
  have h2 : 0 ≤ size (published m d e d) := by unfold size; positivity
  have h3 : 0 < size d := by
    rcases (by unfold size; positivity : (0 : ℝ) ≤ size d).lt_or_eq with h | h
    · exact h
    · exfalso
      have : d = 0 := by
        funext j
        have := le_size d j
        rw [← h] at this
        exact abs_nonpos_iff.mp this
      exact hnd 0 (by rw [this]; simp)
  nlinarith

/-- C155, chains: with a simplified method, adapting from `u` to `t` and then to `v` gives the colour that adapting from `u` to `v` at once gives, up to the error of the stored inverse (for XYZ
scaling exactly, `tol` is 0).  `K` bounds the norm of the second step.  No component of the colour in between may be outside the range; the target components may. -/
theorem C155_chain_partial (m : AdaptMatrix) (h : Heap) (i : Nat) (c : Color) (sp u t v a b : Nat) (x s d e : Fin 3 → ℝ) (K : ℝ) (hs : Setting h i .xyz c sp u t) (hs' : Setting h i .xyz c sp u v)
    (htv : t ≠ v) (hx : IsXyz c x) (hw : Whites h u t s d) (hw' : Whites h u v s e) (hns : ∀ j, (cone m).mulVec s j ≠ 0) (hnd : ∀ j, (cone m).mulVec d j ≠ 0)
    (hK : ∀ v, size (published m d e v) ≤ K * size v) (hp : ∀ j, 0 ≤ published m s d x j ∧ published m s d x j ≤ 100) (ha : a ≠ sp) :
    ∃ k h' k' h'' r y z, (Method.simple m).fn a (some i) (some t) h = (ok (some k), h') ∧ (Method.simple m).fn b (some k) (some v) h' = (ok (some k'), h'') ∧ h''.colors[k']? = some r ∧
      IsXyz r z ∧ r.alpha = c.alpha ∧ Adapts (.simple m) h i v c.alpha y ∧ ∀ j, |z j - y j| ≤ tol m * (K * (4 + 3 * tol m) * size (published m s d x) + size (published m s e x)) := by
  have hK0 := norm_nonneg hnd hK
  obtain ⟨y, hy, he⟩ := C97_partial m h i c sp u t x s d hs hx hw hns
  obtain ⟨y', hy', he'⟩ := C97_partial m h i c sp u v x s e hs' hx hw' hns
  obtain ⟨k, r, h', e1, hk, -, hr1, hal, hsp⟩ := hy a
  obtain ⟨k2, r2, h2, e2, hk2, -, hre, hu2, -, -, hwh, -⟩ := C81_partial (.simple m) h i .xyz c sp u t a hs (by simp) (by simp) (fun h => h.elim) ha
  rw [e1] at e2
  simp only [Prod.mk.injEq, Outcome.ok.injEq, Option.some.injEq] at e2
  obtain ⟨rfl, rfl⟩ := e2
  have hs2 : Setting h' k .xyz r a t v := ⟨hk, hr1.col, hsp, hu2, hre.white, htv⟩
  have hw2 : Whites h' t v d e := ⟨by rw [hwh]; exact hw.target, by rw [hwh]; exact hw'.target⟩
  obtain ⟨z, hz, hez⟩ := C97_partial m h' k r a t v y d e hs2 hr1 hw2 hnd
  obtain ⟨k', r', h'', e3, hk', -, hr3, hal3, hsp3⟩ := hz b
  refine ⟨k, h', k', h'', r', y', z, e1, e3, hk', hr3, hal3.trans hal, hy', fun j => ?_⟩
  set S := size (published m s d x) with hS
  set T := tol m with hT
  have hT0 : 0 ≤ T := tol_nonneg m
  have hS0 : 0 ≤ S := by rw [hS]; unfold size; positivity
  have d1 : ∀ j, |y j - published m s d x j| ≤ T * S := fun j => by
    have := he j
    rwa [clip_id (hp j).1 (hp j).2] at this
  have d2 : size (fun j => y j - published m s d x j) ≤ 3 * (T * S) := size_close d1
  have d3 : |published m d e y j - published m s e x j| ≤ K * (3 * (T * S)) := by
    have e := congrFun (published_sub m d e y (published m s d x)) j
    rw [published_chain m s d _ x hnd] at e
    rw [← e]
    exact (le_size _ j).trans ((hK _).trans (mul_le_mul_of_nonneg_left d2 hK0))
  have d4 : size (published m d e y) ≤ K * (S + 3 * (T * S)) :=
    (hK y).trans (mul_le_mul_of_nonneg_left ((size_sub y (published m s d x)).trans (by linarith)) hK0)
  have d5 := clip_close (published m d e y j) (published m s e x j)
  have d6 := hez j
  have d7 : T * size (published m d e y) ≤ T * (K * (S + 3 * (T * S))) := mul_le_mul_of_nonneg_left d4 hT0
  have d8 := he' j
  have d9 : |z j - y' j| ≤ |z j - clip (published m d e y j)| + |clip (published m d e y j) - clip (published m s e x j)| + |y' j - clip (published m s e x j)| := by
    have h1 := abs_add_le (z j - clip (published m d e y j)) (clip (published m d e y j) - clip (published m s e x j))
    have h2 := abs_add_le (z j - clip (published m s e x j)) (clip (published m s e x j) - y' j)
    rw [sub_add_sub_cancel] at h1 h2
    rw [abs_sub_comm (clip (published m s e x j)) (y' j)] at h2
    linarith
  calc |z j - y' j| ≤ T * (K * (S + 3 * (T * S))) + K * (3 * (T * S)) + T * size (published m s e x) := by linarith
    _ = _ := by ring

/-- C155 fails for the full Bradford and CMCCAT97 methods: with `a = b = 0` the combination of any two colours is black, which they take to (100, 100, 100), not to black. -/
theorem C155_violated (q : Method) (hq : q.Normalises) (h : Heap) (j : Nat) (e : Color) (sq u t : Nat) (x x' y y' : Fin 3 → ℝ) (he : Setting h j .xyz e sq u t)
    (hxe : IsXyz e fun l => 0 * x l + 0 * x' l) : ¬ Adapts q h j t e.alpha fun l => clip (0 * y l + 0 * y' l) := by
  intro hc
  have hb := C100_violated q hq h j e sq u t he (by simpa using hxe)
  have := congrFun (adapts_unique hc hb) 0
  norm_num [clip] at this

end exact

/-! ## Examples -/

/-- A memory with three XYZ colours on the white point `s`; white point 2 is `e`, all others `d`. -/
noncomputable def AdaptSpec.demo3 [FloatModel] (w : World) (c1 c2 c3 : Color) (s d e : Fin 3 → ℝ) : Heap :=
  ⟨{ w with
      whites := fun n => if n = 0 then ⟨⟨1, 1, 1⟩, ⟨fin (s 0), fin (s 1), fin (s 2)⟩⟩ else if n = 2 then ⟨⟨1, 1, 1⟩, ⟨fin (e 0), fin (e 1), fin (e 2)⟩⟩ else ⟨⟨1, 1, 1⟩, ⟨fin (d 0), fin (d 1), fin (d 2)⟩⟩
      spaces := fun _ => ⟨⟨1, 0, 0⟩, ⟨0, 1, 0⟩, ⟨0, 0, 1⟩, some 0, ⟨3, 3, [[1, 0, 0], [0, 1, 0], [0, 0, 1]]⟩, ⟨3, 3, [[1, 0, 0], [0, 1, 0], [0, 0, 1]]⟩, some 0⟩ }, [c1, c2, c3]⟩

theorem AdaptSpec.xyzOf_is [FloatModel] (x : Fin 3 → ℝ) (hr : ∀ j, 0 ≤ x j ∧ x j ≤ 100) : IsXyz (xyzOf x) x :=
  ⟨(Conv.construct_result (t := .xyz) (by simp) rfl (xyzOf_eq x hr)).col, rfl⟩

theorem AdaptSpec.demo3_setting [FloatModel] (w : World) (x1 x2 x3 s d e : Fin 3 → ℝ) (i t : Nat) (x : Fin 3 → ℝ) (hi : [xyzOf x1, xyzOf x2, xyzOf x3][i]? = some (xyzOf x))
    (hr : ∀ j, 0 ≤ x j ∧ x j ≤ 100) (ht : 0 ≠ t) : Setting (demo3 w (xyzOf x1) (xyzOf x2) (xyzOf x3) s d e) i .xyz (xyzOf x) 0 0 t :=
  ⟨hi, (xyzOf_is x hr).col, rfl, ⟨by simp [demo3], by simp [demo3], Mat.mk_shape3 _ _ _ _ _ _ _ _ _, Mat.mk_shape3 _ _ _ _ _ _ _ _ _⟩, rfl, ht⟩

/-- C155 with XYZ scaling from (1, 1, 1) to (0.9, 1, 0.8): (50, 40, 30) becomes (45, 40, 24) and (30, 60, 20) becomes (27, 60, 16), so their middle (40, 50, 25) becomes (36, 50, 20); twice the
first colour becomes (90, 80, 48). -/
example [FloatModel] [ExactModel] (w : World) :
    Adapts (.simple .xyz_scale) (demo3 w (xyzOf ![50, 40, 30]) (xyzOf ![30, 60, 20]) (xyzOf fun l => 1 / 2 * (![50, 40, 30] : Fin 3 → ℝ) l + (1 - 1 / 2) * (![30, 60, 20] : Fin 3 → ℝ) l)
      ![1, 1, 1] ![0.9, 1, 0.8] ![0.8, 1, 1.2]) 2 1 1 (fun l => 1 / 2 * (![45, 40, 24] : Fin 3 → ℝ) l + (1 - 1 / 2) * (![27, 60, 16] : Fin 3 → ℝ) l) ∧
    Adapts (.simple .xyz_scale) (demo3 w (xyzOf ![50, 40, 30]) (xyzOf fun l => 2 * (![50, 40, 30] : Fin 3 → ℝ) l) (xyzOf ![50, 40, 30]) ![1, 1, 1] ![0.9, 1, 0.8] ![0.8, 1, 1.2]) 1 1 1
      (fun l => clip (2 * (![45, 40, 24] : Fin 3 → ℝ) l)) := by
  have hl : Lit .xyz_scale ![1, 1, 1] ![0.9, 1, 0.8] := ⟨cone_grey _, cone_other _, by norm_num, by norm_num⟩
  have base : ∀ (x1 x2 x3 x y : Fin 3 → ℝ) (i : Nat), [xyzOf x1, xyzOf x2, xyzOf x3][i]? = some (xyzOf x) → (∀ j, 0 ≤ x j ∧ x j ≤ 100) →
      (∀ j, y j = clip (x j * ((![0.9, 1, 0.8] : Fin 3 → ℝ) j / (![1, 1, 1] : Fin 3 → ℝ) j))) →
      Adapts (.simple .xyz_scale) (demo3 w (xyzOf x1) (xyzOf x2) (xyzOf x3) ![1, 1, 1] ![0.9, 1, 0.8] ![0.8, 1, 1.2]) i 1 1 y := by
    intro x1 x2 x3 x y i hi hr hy
    obtain ⟨z, hz, he⟩ := C97_partial .xyz_scale _ i _ 0 0 1 x ![1, 1, 1] ![0.9, 1, 0.8] (demo3_setting w x1 x2 x3 ![1, 1, 1] ![0.9, 1, 0.8] ![0.8, 1, 1.2] i 1 x hi hr (by simp)) (xyzOf_is x hr) ⟨rfl, rfl⟩ (fun j => (cone_grey _ j).ne')
    have : z = y := by
      funext j
      have h1 := he j
      simp only [tol, zero_mul] at h1
      have h2 := abs_nonpos_iff.mp h1
      rw [sub_eq_zero.mp h2, hy j]
      simp [published, cone]
    rw [← this]; exact hz
  have r1 : ∀ j, 0 ≤ (![50, 40, 30] : Fin 3 → ℝ) j ∧ (![50, 40, 30] : Fin 3 → ℝ) j ≤ 100 := by intro j; fin_cases j <;> norm_num
  have r2 : ∀ j, 0 ≤ (![30, 60, 20] : Fin 3 → ℝ) j ∧ (![30, 60, 20] : Fin 3 → ℝ) j ≤ 100 := by intro j; fin_cases j <;> norm_num
  have i1 : Inside ![45, 40, 24] := by intro j; fin_cases j <;> norm_num
  have i2 : Inside ![27, 60, 16] := by intro j; fin_cases j <;> norm_num
  have y1 : ∀ j, (![45, 40, 24] : Fin 3 → ℝ) j = clip ((![50, 40, 30] : Fin 3 → ℝ) j * ((![0.9, 1, 0.8] : Fin 3 → ℝ) j / (![1, 1, 1] : Fin 3 → ℝ) j)) := by
    intro j; fin_cases j <;> norm_num [clip]
  have y2 : ∀ j, (![27, 60, 16] : Fin 3 → ℝ) j = clip ((![30, 60, 20] : Fin 3 → ℝ) j * ((![0.9, 1, 0.8] : Fin 3 → ℝ) j / (![1, 1, 1] : Fin 3 → ℝ) j)) := by
    intro j; fin_cases j <;> norm_num [clip]
  constructor
  · have r3 : ∀ j, 0 ≤ (fun l => 1 / 2 * (![50, 40, 30] : Fin 3 → ℝ) l + (1 - 1 / 2) * (![30, 60, 20] : Fin 3 → ℝ) l) j ∧
        (fun l => 1 / 2 * (![50, 40, 30] : Fin 3 → ℝ) l + (1 - 1 / 2) * (![30, 60, 20] : Fin 3 → ℝ) l) j ≤ 100 := by intro j; fin_cases j <;> norm_num
    exact C155_mixture_partial _ (.simple _) (fun h => h) _ 0 1 2 _ _ (xyzOf _) 0 0 0 0 1 _ _ _ _ _ _ (1 / 2) (by norm_num) (by norm_num) (demo3_setting w _ _ _ _ _ _ 0 1 _ rfl r1 (by simp))
      (demo3_setting w _ _ _ _ _ _ 1 1 _ rfl r2 (by simp)) (demo3_setting w _ _ _ _ _ _ 2 1 _ rfl r3 (by simp)) (xyzOf_is _ r1) (xyzOf_is _ r2) (xyzOf_is _ r3) ⟨rfl, rfl⟩ hl
      (base _ _ _ _ _ 0 rfl r1 y1) (base _ _ _ _ _ 1 rfl r2 y2) i1 i2
  · have r3 : ∀ j, 0 ≤ (fun l => 2 * (![50, 40, 30] : Fin 3 → ℝ) l) j ∧ (fun l => 2 * (![50, 40, 30] : Fin 3 → ℝ) l) j ≤ 100 := by intro j; fin_cases j <;> norm_num
    exact C155_scale _ (.simple _) _ 0 1 _ (xyzOf _) 0 0 0 1 _ _ _ _ 2 (by norm_num) (demo3_setting w _ _ _ _ _ _ 0 1 _ rfl r1 (by simp)) (demo3_setting w _ _ _ _ _ _ 1 1 _ rfl r3 (by simp))
      (xyzOf_is _ r1) (xyzOf_is _ r3) ⟨rfl, rfl⟩ hl (by norm_num) (base _ _ _ _ _ 0 rfl r1 y1) i1

/-- C155, chains: XYZ scaling from (1, 1, 1) over (0.9, 1, 0.8) to (0.8, 1, 1.2) and at once agree exactly. -/
example [FloatModel] [ExactModel] (w : World) :
    ∃ k h' k' h'' r y, Adapt.xyz_scale_adaptation 7 (some 0) (some 1) (demo3 w (xyzOf ![50, 40, 30]) (xyzOf ![50, 40, 30]) (xyzOf ![50, 40, 30]) ![1, 1, 1] ![0.9, 1, 0.8] ![0.8, 1, 1.2]) = (ok (some k), h') ∧
      Adapt.xyz_scale_adaptation 8 (some k) (some 2) h' = (ok (some k'), h'') ∧ h''.colors[k']? = some r ∧ IsXyz r y ∧
      Adapts (.simple .xyz_scale) (demo3 w (xyzOf ![50, 40, 30]) (xyzOf ![50, 40, 30]) (xyzOf ![50, 40, 30]) ![1, 1, 1] ![0.9, 1, 0.8] ![0.8, 1, 1.2]) 0 2 1 y := by
  have r1 : ∀ j, 0 ≤ (![50, 40, 30] : Fin 3 → ℝ) j ∧ (![50, 40, 30] : Fin 3 → ℝ) j ≤ 100 := by intro j; fin_cases j <;> norm_num
  have hp : ∀ s d x : Fin 3 → ℝ, published .xyz_scale s d x = fun j => x j * (d j / s j) := by
    intro s d x
    simp [published, cone]
  obtain ⟨k, h', k', h'', r, y, z, e1, e2, e3, e4, -, e5, e6⟩ := C155_chain_partial .xyz_scale _ 0 _ 0 0 1 2 7 8 ![50, 40, 30] ![1, 1, 1] ![0.9, 1, 0.8] ![0.8, 1, 1.2] 2
    (demo3_setting w ![50, 40, 30] ![50, 40, 30] ![50, 40, 30] ![1, 1, 1] ![0.9, 1, 0.8] ![0.8, 1, 1.2] 0 1 _ rfl r1 (by simp)) (demo3_setting w _ _ _ _ _ _ 0 2 _ rfl r1 (by simp)) (by simp) (xyzOf_is _ r1) ⟨rfl, rfl⟩ ⟨rfl, rfl⟩
    (fun j => (cone_grey _ j).ne') (fun j => (cone_other _ j).ne')
    (by
      intro v
      rw [hp]
      unfold size
      simp only [abs_mul]
      have q2 : |(![0.8, 1, 1.2] : Fin 3 → ℝ) 2 / (![0.9, 1, 0.8] : Fin 3 → ℝ) 2| = 3 / 2 := by
        show |(1.2 : ℝ) / 0.8| = 3 / 2
        rw [abs_of_pos (by norm_num)]; norm_num
      rw [q2]
      norm_num
      linarith [abs_nonneg (v 0), abs_nonneg (v 1), abs_nonneg (v 2)])
    (by
      rw [hp]
      intro j
      fin_cases j <;> norm_num) (by simp)
  refine ⟨k, h', k', h'', r, z, e1, e2, e3, e4, ?_⟩
  have : z = y := by
    funext j
    have := e6 j
    simp only [tol, zero_mul] at this
    exact sub_eq_zero.mp (abs_nonpos_iff.mp this)
  rw [this]; exact e5

/-- C155 fails for the full Bradford method. -/
example [FloatModel] [ExactModel] (w : World) :
    ¬ Adapts .bradford (demo2 w (xyzOf fun _ => 0) ![1, 1, 1] ![0.9, 1, 0.8]) 0 1 1 fun l => clip (0 * (![45, 40, 24] : Fin 3 → ℝ) l + 0 * (![27, 60, 16] : Fin 3 → ℝ) l) := by
  obtain ⟨h1, h2, h3⟩ := demo2_ok w (fun _ => 0) ![1, 1, 1] ![0.9, 1, 0.8] (by intro j; norm_num)
  exact C155_violated .bradford trivial _ 0 _ 0 0 1 ![50, 40, 30] ![30, 60, 20] _ _ h1 (by simpa using h2)
