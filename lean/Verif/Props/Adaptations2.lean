import Verif.Props.Adaptations
import Verif.Nan

/-!
# Properties C79, C80, C97, C98 and C100–C102: the values of chromatic adaptation

Colours of class XYZ in exact arithmetic, unless stated otherwise.  The specification is written with the published cone response matrices as real matrices and their true inverses; the
library stores rounded inverses, so most statements carry the tolerance `tol`.
-/

open Outcome Fl Prog ObjectSpec ConvSpec CombineSpec Matrix

namespace AdaptSpec

/-- The published cone response matrices: von Kries (Hunt-Pointer-Estevez), Bradford, XYZ scaling, Sharp, CMCCAT97 (Bradford), CMCCAT2000, CAT02. -/
noncomputable def cone : AdaptMatrix → Matrix (Fin 3) (Fin 3) ℝ
  | .von_kries => !![0.40024, 0.70760, -0.08081; -0.22630, 1.16532, 0.04570; 0, 0, 0.91822]
  | .bradford => !![0.8951, 0.2664, -0.1614; -0.7502, 1.7135, 0.0367; 0.0389, -0.0685, 1.0296]
  | .xyz_scale => 1
  | .sharp => !![1.2694, -0.0988, -0.1706; -0.8364, 1.8006, 0.0357; 0.0297, -0.0315, 1.0018]
  | .cmccat97 => !![0.8951, 0.2664, -0.1614; -0.7502, 1.7135, 0.0367; 0.0389, -0.0685, 1.0296]
  | .cmccat2000 => !![0.7982, 0.3389, -0.1371; -0.5918, 1.5512, 0.0406; 0.0008, 0.0239, 0.9753]
  | .cat02 => !![0.7328, 0.4296, -0.1624; -0.7036, 1.6975, 0.0061; 0.0030, 0.0136, 0.9834]

/-- The relative error made by the rounded inverse matrices of the library. -/
noncomputable def tol : AdaptMatrix → ℝ
  | .von_kries => 4e-8
  | .bradford => 8e-8
  | .xyz_scale => 0
  | _ => 1e-5

/-- Sum of the absolute values. -/
def size (v : Fin 3 → ℝ) : ℝ := |v 0| + |v 1| + |v 2|

/-- The range of an XYZ component. -/
noncomputable def clip (x : ℝ) : ℝ := max (min x 100) 0

/-- `c` is an XYZ colour with the components `x`. -/
structure IsXyz (c : Color) (x : Fin 3 → ℝ) : Prop where
  col : IsColor .xyz c
  comps : c.comps = [fin (x 0), fin (x 1), fin (x 2)]

/-- The white points at `u` and `t` have the tristimulus values `s` and `d`. -/
structure Whites (h : Heap) (u t : Nat) (s d : Fin 3 → ℝ) : Prop where
  source : (h.world.whites u).tri = ⟨fin (s 0), fin (s 1), fin (s 2)⟩
  target : (h.world.whites t).tri = ⟨fin (d 0), fin (d 1), fin (d 2)⟩

/-- Adapting object `i`, an XYZ colour with the alpha value `al`, to the white point `t` gives a new XYZ colour with the components `y`, the same alpha value and the new colour space
definition. -/
def Adapts [FloatModel] (q : Method) (h : Heap) (i t : Nat) (al : Fl) (y : Fin 3 → ℝ) : Prop :=
  ∀ a, ∃ k r h', q.fn a (some i) (some t) h = (ok (some k), h') ∧ h'.colors[k]? = some r ∧ h.colors.length ≤ k ∧ IsXyz r y ∧ r.alpha = al ∧ r.space = some a

/-- The published adaptation: cone responses are scaled by the ratio of the cone responses of the white points. -/
noncomputable def published (m : AdaptMatrix) (s d x : Fin 3 → ℝ) : Fin 3 → ℝ :=
  (cone m)⁻¹.mulVec fun i => (cone m).mulVec x i * ((cone m).mulVec d i / (cone m).mulVec s i)

/-- The parameters are numbers in the domain of the formulas. -/
inductive Method.Admissible : Method → Prop
  | simple (m) : Method.Admissible (.simple m)
  | bradford : Method.Admissible .bradford
  | cmccat97 (f la : ℝ) (h : 0 ≤ la) : Method.Admissible (.cmccat97 (fin f) (fin la))
  | cmccat2000 (f la lr : ℝ) (h : 0 < la + lr) : Method.Admissible (.cmccat2000 (fin f) (fin la) (fin lr))
  | cat02 (f la : ℝ) : Method.Admissible (.cat02 (fin f) (fin la))

/-- The cone response matrix a method uses. -/
def Method.matrix : Method → AdaptMatrix
  | .simple m => m
  | .bradford => .bradford
  | .cmccat97 _ _ => .cmccat97
  | .cmccat2000 _ _ _ => .cmccat2000
  | .cat02 _ _ => .cat02

theorem cone_eq (m : AdaptMatrix) : cone m = Adapt.square m.values := by
  cases m <;> ext i j <;> fin_cases i <;> fin_cases j <;> simp [cone, Adapt.square, AdaptMatrix.values] <;> norm_num

theorem tol_eq (m : AdaptMatrix) : tol m = Adapt.slack m := by cases m <;> rfl

theorem tol_nonneg (m : AdaptMatrix) : 0 ≤ tol m := by cases m <;> norm_num [tol]

theorem clip_id {x : ℝ} (h0 : 0 ≤ x) (h1 : x ≤ 100) : clip x = x := by rw [clip, min_eq_left h1, max_eq_left h0]

/-- Limiting to the range does not increase distances. -/
theorem clip_close (x y : ℝ) : |clip x - clip y| ≤ |x - y| :=
  (abs_max_sub_max_le_abs _ _ _).trans ((abs_min_sub_min_le_max x 100 y 100).trans (by simp))

theorem clip_near {x y e : ℝ} (h : |x - y| ≤ e) (h0 : 0 ≤ y) (h1 : y ≤ 100) : |clip x - y| ≤ e := by
  have := clip_close x y
  rw [clip_id h0 h1] at this
  exact this.trans h

section
variable [FloatModel]

/-- The computation of a method. -/
noncomputable def Method.core : Method → Adapt.Core
  | .simple m => Adapt.simplified m
  | .bradford => Adapt.bradfordCore
  | .cmccat97 f la => Adapt.cmccat97Core f la
  | .cmccat2000 f la lr => Adapt.cmccat2000Core f la lr
  | .cat02 f la => Adapt.cat02Core f la

theorem fn_eq (q : Method) : q.fn = Adapt.adapt q.core := by
  rcases q with m | _ | _ | _ | _
  · cases m <;> rfl
  all_goals rfl

theorem core_run0 {q : Method} {h : Heap} {i : Nat} {c : Color} {sp u t : Nat} {x : Fin 3 → ℝ} {v0 v1 v2 : Fl} (hs : Setting h i .xyz c sp u t) (hx : IsXyz c x)
    (hc : q.core [fin (x 0), fin (x 1), fin (x 2)] [fin (x 0), fin (x 1), fin (x 2)] (h.world.whites u).tri (h.world.whites t).tri = ok [v0, v1, v2]) (a : Nat) :
    ∃ k h', q.fn a (some i) (some t) h = (ok (some k), h') ∧ h'.colors[k]? = some (Color.mkXyz .xyz v0 v1 v2 c.alpha (some a)) ∧ h.colors.length ≤ k := by
  obtain ⟨x', w0, w1, w2, d', r, k, h', h1, h2, h3, h4, h5⟩ := Adapt.adapt_run (f := q.core) (a := a) (s := .xyz) ⟨by simp, by simp, by simp⟩ hs.col hs.here hs.space hs.usable hs.white hs.other
    (fun x y z => by
      rcases q with m | _ | ⟨f, la⟩ | ⟨f, la, lr⟩ | ⟨f, la⟩
      · exact Adapt.simplified_total m x y z c.comps _ _
      · show ∃ v0 v1 v2, Adapt.bradfordCore _ c.comps _ _ = _
        rw [hx.comps]; exact Adapt.bradfordCore_total x y z _ _ _ _ _
      · show ∃ v0 v1 v2, Adapt.cmccat97Core f la _ c.comps _ _ = _
        rw [hx.comps]; exact Adapt.cmccat97Core_total f la x y z _ _ _ _ _
      · exact Adapt.cmccat2000Core_total f la lr x y z c.comps _ _
      · exact Adapt.cat02Core_total f la x y z c.comps _ _)
  have hx' : c = x' := by simpa [Val.to] using h5.toXyz
  subst hx'
  have he : Conv.effect .xyz .xyz h.world c = c := rfl
  rw [he, hx.comps, hc] at h1
  have hl : v0 = w0 ∧ v1 = w1 ∧ v2 = w2 := by simpa using h1
  obtain ⟨rfl, rfl, rfl⟩ := hl
  have hr : Color.mkXyz .xyz v0 v1 v2 c.alpha (some a) = r := by simpa [Val.to] using h5.back
  subst hr
  exact ⟨k, h', by rw [fn_eq]; exact h5.run, h5.here, h5.new⟩

theorem core_run {q : Method} {h : Heap} {i : Nat} {c : Color} {sp u t : Nat} {x s d v : Fin 3 → ℝ} (hs : Setting h i .xyz c sp u t) (hx : IsXyz c x) (hw : Whites h u t s d)
    (hc : q.core [fin (x 0), fin (x 1), fin (x 2)] [fin (x 0), fin (x 1), fin (x 2)] ⟨fin (s 0), fin (s 1), fin (s 2)⟩ ⟨fin (d 0), fin (d 1), fin (d 2)⟩ = ok (List.ofFn fun i => fin (v i))) :
    Adapts q h i t c.alpha (fun i => clip (v i)) := by
  intro a
  rw [← hw.source, ← hw.target] at hc
  obtain ⟨k, h', e, hk, hn⟩ := core_run0 (v0 := fin (v 0)) (v1 := fin (v 1)) (v2 := fin (v 2)) hs hx (by rw [hc]; rfl) a
  refine ⟨k, _, h', e, hk, hn, ⟨Adapt.xyz_color _ _ _ _ _, ?_⟩, rfl, rfl⟩
  simp [Color.mkXyz, lit_def, zero_def, Color.clamp_fin, clip]

end

section
variable [FloatModel] [ExactModel]

theorem simple_run {m : AdaptMatrix} {h : Heap} {i : Nat} {c : Color} {sp u t : Nat} {x s d : Fin 3 → ℝ} (hs : Setting h i .xyz c sp u t) (hx : IsXyz c x) (hw : Whites h u t s d)
    (hn : ∀ i, (cone m).mulVec s i ≠ 0) : Adapts (.simple m) h i t c.alpha (fun i => clip ((Adapt.ideal m s d).mulVec x i)) := by
  refine core_run hs hx hw ?_
  rw [cone_eq] at hn
  exact (Adapt.simplified_exact m x s d [fin (x 0), fin (x 1), fin (x 2)] hn).trans rfl

omit [FloatModel] [ExactModel] in
theorem ideal_eq (m : AdaptMatrix) (s d x : Fin 3 → ℝ) :
    (Adapt.ideal m s d).mulVec x = (Adapt.square m.inverseValues).mulVec fun i => (cone m).mulVec x i * ((cone m).mulVec d i / (cone m).mulVec s i) := by
  unfold Adapt.ideal
  rw [← Matrix.mulVec_mulVec, ← Matrix.mulVec_mulVec]
  congr 1
  funext i
  rw [Matrix.mulVec_diagonal, cone_eq, mul_comm]

omit [FloatModel] [ExactModel] in
theorem published_close (m : AdaptMatrix) (s d x : Fin 3 → ℝ) (i : Fin 3) : |(Adapt.ideal m s d).mulVec x i - published m s d x i| ≤ tol m * size (published m s d x) := by
  rw [ideal_eq, tol_eq]
  unfold published size
  rw [cone_eq]
  exact Adapt.inverse_close m _ i

omit [FloatModel] [ExactModel] in
theorem cone_unit (m : AdaptMatrix) : IsUnit (cone m).det := by
  rw [cone_eq]; exact isUnit_iff_ne_zero.mpr (Adapt.square_det m)

omit [FloatModel] [ExactModel] in
/-- A vector whose cone responses are those of `y` is `y`. -/
theorem cone_inv (m : AdaptMatrix) (y v : Fin 3 → ℝ) (h : ∀ i, v i = (cone m).mulVec y i) : (cone m)⁻¹.mulVec v = y := by
  have : v = (cone m).mulVec y := funext h
  rw [this, Matrix.mulVec_mulVec, Matrix.nonsing_inv_mul _ (cone_unit m), Matrix.one_mulVec]

omit [FloatModel] [ExactModel] in
theorem published_white (m : AdaptMatrix) (s d : Fin 3 → ℝ) (k : ℝ) (hn : ∀ i, (cone m).mulVec s i ≠ 0) : published m s d (fun i => k * s i) = fun i => k * d i := by
  refine cone_inv m _ _ fun i => ?_
  have h1 : (fun i => k * s i) = k • s := rfl
  have h2 : (fun i => k * d i) = k • d := rfl
  rw [h1, h2, Matrix.mulVec_smul, Matrix.mulVec_smul, Pi.smul_apply, Pi.smul_apply, smul_eq_mul, smul_eq_mul, mul_assoc, mul_div_cancel₀ _ (hn i)]

omit [FloatModel] [ExactModel] in
theorem published_same (m : AdaptMatrix) (s x : Fin 3 → ℝ) (hn : ∀ i, (cone m).mulVec s i ≠ 0) : published m s s x = x :=
  cone_inv m _ _ fun i => by rw [div_self (hn i), mul_one]

end

end AdaptSpec

open AdaptSpec

section exact
variable [FloatModel] [ExactModel]

/-! ## C97: the published transform -/

/-- C97: the simplified methods compute the published transform up to the error of the stored inverse. -/
theorem C97_partial (m : AdaptMatrix) (h : Heap) (i : Nat) (c : Color) (sp u t : Nat) (x s d : Fin 3 → ℝ) (hs : Setting h i .xyz c sp u t) (hx : IsXyz c x) (hw : Whites h u t s d)
    (hn : ∀ j, (cone m).mulVec s j ≠ 0) :
    ∃ y, Adapts (.simple m) h i t c.alpha y ∧ ∀ j, |y j - clip (published m s d x j)| ≤ tol m * size (published m s d x) :=
  ⟨_, simple_run hs hx hw hn, fun j => (clip_close _ _).trans (published_close m s d x j)⟩

/-- `x` to the power `p` with the sign of `x`. -/
noncomputable def AdaptSpec.spow (x p : ℝ) : ℝ := if x < 0 then -(|x| ^ p) else |x| ^ p

/-- The published full Bradford transform (Lam): responses relative to the luminance, the blue response raised to the power `(Bs / Bd) ^ 0.0834`. -/
noncomputable def AdaptSpec.publishedBradford (s d x : Fin 3 → ℝ) : Fin 3 → ℝ :=
  let R := fun j => (cone .bradford).mulVec x j / x 1
  let S := fun j => (cone .bradford).mulVec s j / s 1
  let D := fun j => (cone .bradford).mulVec d j / d 1
  let β := (S 2 / D 2) ^ (0.0834 : ℝ)
  (cone .bradford)⁻¹.mulVec ![x 1 * (D 0 * (R 0 / S 0)), x 1 * (D 1 * (R 1 / S 1)), x 1 * (D 2 * spow (R 2 / S 2) β)]

/-- The published CMCCAT97 transform with the degree of adaptation `e`. -/
noncomputable def AdaptSpec.publishedCmccat97 (e : ℝ) (s d x : Fin 3 → ℝ) : Fin 3 → ℝ :=
  let R := fun j => (cone .cmccat97).mulVec x j / x 1
  let S := fun j => (cone .cmccat97).mulVec s j / s 1
  let D := fun j => (cone .cmccat97).mulVec d j / d 1
  let β := (S 2 / D 2) ^ (0.0834 : ℝ)
  (cone .cmccat97)⁻¹.mulVec ![x 1 * ((e * (D 0 / S 0) + 1 - e) * R 0), x 1 * ((e * (D 1 / S 1) + 1 - e) * R 1), x 1 * ((e * (D 2 / S 2 ^ β) + 1 - e) * spow (R 2) β)]

/-- The degree of adaptation of CIECAM97s, limited to [0, 1]. -/
noncomputable def AdaptSpec.degreeCmccat97 (f la : ℝ) : ℝ := max 0 (min 1 (f - f / (1 + 2 * la ^ (0.25 : ℝ) + la ^ (2 : ℝ) / 300)))

/-- C97 for the full Bradford method. -/
theorem C97_bradford_partial (h : Heap) (i : Nat) (c : Color) (sp u t : Nat) (x s d : Fin 3 → ℝ) (hs : Setting h i .xyz c sp u t) (hx : IsXyz c x) (hw : Whites h u t s d)
    (hx1 : x 1 ≠ 0) (hs1 : s 1 ≠ 0) (hd1 : d 1 ≠ 0) (hn : ∀ j, (cone .bradford).mulVec s j ≠ 0) (hp : 0 < ((cone .bradford).mulVec s 2 / s 1) / ((cone .bradford).mulVec d 2 / d 1)) :
    ∃ y, Adapts .bradford h i t c.alpha y ∧ ∀ j, |y j - clip (publishedBradford s d x j)| ≤ 8e-8 * size (publishedBradford s d x) := by
  rw [cone_eq] at hn hp
  have e := Adapt.bradfordCore_exact x s d (fin (x 0)) (x 1) [fin (x 2)] hx1 hs1 hd1 hn hp
  refine ⟨_, core_run (q := .bradford) hs hx hw e, fun j => (clip_close _ _).trans ?_⟩
  have hv : publishedBradford s d x = (Adapt.square AdaptMatrix.bradford.values)⁻¹.mulVec (Adapt.bradfordVec (Adapt.square AdaptMatrix.bradford.values) x s d (x 1)) := by
    unfold publishedBradford Adapt.bradfordVec Adapt.signedPow spow
    rw [cone_eq]
    simp only [mul_comm (x 1)]
  rw [hv]
  exact Adapt.inverse_close .bradford _ j

/-- C97 for CMCCAT97. -/
theorem C97_cmccat97_partial (f la : ℝ) (hla : 0 ≤ la) (h : Heap) (i : Nat) (c : Color) (sp u t : Nat) (x s d : Fin 3 → ℝ) (hs : Setting h i .xyz c sp u t) (hx : IsXyz c x) (hw : Whites h u t s d)
    (hx1 : x 1 ≠ 0) (hs1 : s 1 ≠ 0) (hd1 : d 1 ≠ 0) (hn : ∀ j, (cone .cmccat97).mulVec s j ≠ 0) (hs2 : 0 < (cone .cmccat97).mulVec s 2 / s 1) (hd2 : 0 < (cone .cmccat97).mulVec d 2 / d 1) :
    ∃ y, Adapts (.cmccat97 (fin f) (fin la)) h i t c.alpha y ∧
      ∀ j, |y j - clip (publishedCmccat97 (degreeCmccat97 f la) s d x j)| ≤ 1e-5 * size (publishedCmccat97 (degreeCmccat97 f la) s d x) := by
  rw [cone_eq] at hn hs2 hd2
  have e := Adapt.cmccat97Core_exact f la _ (Adapt.degree97_fin f la hla) x s d (fin (x 0)) (x 1) [fin (x 2)] hx1 hs1 hd1 hn hs2 hd2
  refine ⟨_, core_run (q := .cmccat97 (fin f) (fin la)) hs hx hw e, fun j => (clip_close _ _).trans ?_⟩
  have hv : publishedCmccat97 (degreeCmccat97 f la) s d x = (Adapt.square AdaptMatrix.cmccat97.values)⁻¹.mulVec (Adapt.cmccat97Vec (Adapt.square AdaptMatrix.cmccat97.values) x s d (x 1) (degreeCmccat97 f la)) := by
    unfold publishedCmccat97 Adapt.cmccat97Vec Adapt.signedPow spow
    rw [cone_eq]
    dsimp only
    congr 1
    funext j
    fin_cases j
    · show _ * (_ * _) = _ * (_ * _); ring
    · show _ * (_ * _) = _ * (_ * _); ring
    · show _ * (_ * _) = _ * (_ * _); ring
  rw [hv]
  exact Adapt.inverse_close .cmccat97 _ j

/-! ## C79: white to white -/

/-- C79 up to the error of the stored inverse; also for every multiple `k` of the white point (the grey axis). -/
theorem C79_partial (m : AdaptMatrix) (h : Heap) (i : Nat) (c : Color) (sp u t : Nat) (s d : Fin 3 → ℝ) (k : ℝ) (hs : Setting h i .xyz c sp u t) (hx : IsXyz c fun j => k * s j)
    (hw : Whites h u t s d) (hn : ∀ j, (cone m).mulVec s j ≠ 0) (hd : ∀ j, 0 ≤ k * d j ∧ k * d j ≤ 100) :
    ∃ y, Adapts (.simple m) h i t c.alpha y ∧ ∀ j, |y j - k * d j| ≤ tol m * size fun j => k * d j := by
  refine ⟨_, simple_run hs hx hw hn, fun j => ?_⟩
  have := published_close m s d (fun j => k * s j) j
  rw [published_white m s d k hn] at this
  exact clip_near this (hd j).1 (hd j).2

/-- C79 exactly for XYZ scaling. -/
theorem C79_xyz_scale (h : Heap) (i : Nat) (c : Color) (sp u t : Nat) (s d : Fin 3 → ℝ) (k : ℝ) (hs : Setting h i .xyz c sp u t) (hx : IsXyz c fun j => k * s j) (hw : Whites h u t s d)
    (hn : ∀ j, s j ≠ 0) (hd : ∀ j, 0 ≤ k * d j ∧ k * d j ≤ 100) : Adapts (.simple .xyz_scale) h i t c.alpha fun j => k * d j := by
  obtain ⟨y, hy, he⟩ := C79_partial .xyz_scale h i c sp u t s d k hs hx hw (by simpa [cone] using hn) hd
  have : y = fun j => k * d j := by
    funext j
    have := he j
    simp only [tol, zero_mul] at this
    linarith [abs_nonpos_iff.mp this]
  rwa [← this]

omit [FloatModel] [ExactModel] in
theorem AdaptSpec.inexact (m : AdaptMatrix) (hm : m ≠ .xyz_scale) :
    ∃ j, 0 ≤ (Adapt.square m.inverseValues).mulVec ((Adapt.square m.values).mulVec ![1, 1, 0.5]) j ∧ (Adapt.square m.inverseValues).mulVec ((Adapt.square m.values).mulVec ![1, 1, 0.5]) j ≤ 100 ∧
      (Adapt.square m.inverseValues).mulVec ((Adapt.square m.values).mulVec ![1, 1, 0.5]) j ≠ (![1, 1, 0.5] : Fin 3 → ℝ) j := by
  refine ⟨0, ?_⟩
  cases m <;> first | exact absurd rfl hm | skip
  all_goals
    simp [Adapt.square, AdaptMatrix.values, AdaptMatrix.inverseValues, Matrix.mulVec, dotProduct, Fin.sum_univ_three]
    norm_num

/-- The hypothesis on the cone responses holds for all white point presets of the library. -/
theorem C79_presets (m : AdaptMatrix) (p : WhitePreset) :
    ∃ s : Fin 3 → ℝ, p.create.tri = ⟨fin (s 0), fin (s 1), fin (s 2)⟩ ∧ (∀ j, 0 < s j ∧ s j ≤ 100) ∧ ∀ j, (cone m).mulVec s j ≠ 0 := by
  refine ⟨![p.literals.1, p.literals.2.1, p.literals.2.2.1], by simp [WhitePreset.create, WhitePoint.make, lit_exact], ?_, ?_⟩
  · intro j
    fin_cases j <;> cases p <;> norm_num [WhitePreset.literals]
  · have hx : ∀ p : WhitePreset, 0.1 ≤ p.literals.1 ∧ p.literals.1 ≤ 1 ∧ p.literals.2.1 = 1 ∧ 0.1 ≤ p.literals.2.2.1 ∧ p.literals.2.2.1 ≤ 1.3 := by
      intro p; cases p <;> norm_num [WhitePreset.literals]
    have hsharp : ∀ p : WhitePreset, 1.2694 * p.literals.1 + -0.0988 * p.literals.2.1 + -0.1706 * p.literals.2.2.1 ≠ 0 := by
      intro p; cases p <;> norm_num [WhitePreset.literals]
    obtain ⟨x0, x1, y1, z0, z1⟩ := hx p
    have hsharp := hsharp p
    rw [y1] at hsharp ⊢
    intro j
    generalize p.literals.1 = X at *
    generalize p.literals.2.2.1 = Z at *
    clear hx y1
    norm_num at x0 z0 z1
    have e : ∀ a b c d e f g h i : ℝ, !![a, b, c; d, e, f; g, h, i].mulVec ![X, 1, Z] = ![a * X + b * 1 + c * Z, d * X + e * 1 + f * Z, g * X + h * 1 + i * Z] := by
      intros; funext i; fin_cases i <;> simp [Matrix.mulVec, dotProduct, Fin.sum_univ_three]
    cases m
    case sharp =>
      simp only [cone, e]
      fin_cases j
      · exact hsharp
      all_goals
        show (_ : ℝ) ≠ 0
        apply ne_of_gt
        norm_num
        linarith
    case xyz_scale =>
      rw [cone, Matrix.one_mulVec]
      fin_cases j
      all_goals
        show (_ : ℝ) ≠ 0
        apply ne_of_gt
        norm_num
        try linarith
    all_goals
      simp only [cone, e]
      fin_cases j
    all_goals
      show (_ : ℝ) ≠ 0
      apply ne_of_gt
      norm_num
      try linarith

/-- C79 does not hold exactly: for every simplified method except XYZ scaling there are equal white points between which the white point itself is changed. -/
theorem C79_violated (m : AdaptMatrix) (hm : m ≠ .xyz_scale) (h : Heap) (i : Nat) (c : Color) (sp u t : Nat) (s : Fin 3 → ℝ) (he : s = ![1, 1, 0.5]) (hs : Setting h i .xyz c sp u t) (hx : IsXyz c s)
    (hw : Whites h u t s s) : ∃ y, Adapts (.simple m) h i t c.alpha y ∧ y ≠ s := by
  have hn : ∀ j, (cone m).mulVec s j ≠ 0 := by
    intro j
    subst he
    rw [cone_eq]
    cases m <;> fin_cases j <;> simp [Adapt.square, AdaptMatrix.values, Matrix.mulVec, dotProduct, Fin.sum_univ_three] <;> norm_num
  refine ⟨_, simple_run hs hx hw hn, fun e => ?_⟩
  obtain ⟨j, h0, h1, h2⟩ := inexact m hm
  have := congrFun e j
  rw [Adapt.ideal_same m s s (by rwa [cone_eq] at hn), he, clip_id h0 h1] at this
  exact h2 this

/-! ## C80: equal white points -/

omit [ExactModel] in
/-- C80 when the colour already has the very white point object: the same pointer is returned and nothing changes.  Every method, class and arithmetic. -/
theorem C80_same_pointer (q : Method) (h : Heap) (i : Nat) (c : Color) (sp t a : Nat) (hi : h.colors[i]? = some c) (hsp : c.space = some sp) (hw : (h.world.spaces sp).white = some t) :
    q.fn a (some i) (some t) h = (ok (some i), h) := by
  rw [fn_eq]
  simp only [Adapt.adapt, Prog.bind_def, Combine.load_some hi, world, lift, Adapt.whiteOf_some hsp, hw, if_pos]
  rfl

omit [FloatModel] [ExactModel] in
theorem AdaptSpec.bradfordVec_same (M : Matrix (Fin 3) (Fin 3) ℝ) (x s d : Fin 3 → ℝ) (y : ℝ) (hy : y ≠ 0) (h : ∀ i, M.mulVec s i / s 1 = M.mulVec d i / d 1) (hn : ∀ i, M.mulVec d i / d 1 ≠ 0) :
    Adapt.bradfordVec M x s d y = M.mulVec x := by
  have sp : ∀ x, Adapt.signedPow x 1 = x := by
    intro x
    unfold Adapt.signedPow
    split
    · next h => rw [Real.rpow_one, abs_of_neg h, neg_neg]
    · next h => rw [Real.rpow_one, abs_of_nonneg (not_lt.mp h)]
  have e : ∀ a b : ℝ, a ≠ 0 → a * (b / y / a) * y = b := by intro a b ha; field_simp
  rw [← Adapt.vec3 (M.mulVec x)]
  simp only [Adapt.bradfordVec, h, div_self (hn 2), Real.one_rpow, sp, e _ _ (hn 0), e _ _ (hn 1), e _ _ (hn 2)]

omit [FloatModel] [ExactModel] in
theorem AdaptSpec.cmccat97Vec_same (M : Matrix (Fin 3) (Fin 3) ℝ) (x s d : Fin 3 → ℝ) (y e : ℝ) (hy : y ≠ 0) (h : ∀ i, M.mulVec s i / s 1 = M.mulVec d i / d 1)
    (hn : ∀ i, M.mulVec d i / d 1 ≠ 0) : Adapt.cmccat97Vec M x s d y e = M.mulVec x := by
  have sp : ∀ x, Adapt.signedPow x 1 = x := by
    intro x
    unfold Adapt.signedPow
    split
    · next h => rw [Real.rpow_one, abs_of_neg h, neg_neg]
    · next h => rw [Real.rpow_one, abs_of_nonneg (not_lt.mp h)]
  have e' : ∀ b : ℝ, y * (b / y * (e * 1 + 1 - e)) = b := by intro b; field_simp; ring
  rw [← Adapt.vec3 (M.mulVec x)]
  simp only [Adapt.cmccat97Vec, h, div_self (hn 0), div_self (hn 1), div_self (hn 2), Real.one_rpow, Real.rpow_one, sp, e']

/-- The methods that compensate for the luminance of the white points. -/
inductive AdaptSpec.Method.Relative : Method → Prop
  | bradford : Relative .bradford
  | cmccat97 (f la : Fl) : Relative (.cmccat97 f la)
  | cmccat2000 (f la lr : Fl) : Relative (.cmccat2000 f la lr)

/-- Between white points of the same chromaticity. -/
theorem AdaptSpec.same_core (q : Method) (hq : q.Admissible) (x s d : Fin 3 → ℝ) (l : ℝ) (hl : l ≠ 0) (hsd : s = fun j => l * d j) (hl1 : l = 1 ∨ q.Relative)
    (hn : ∀ j, (cone q.matrix).mulVec d j ≠ 0) (hd1 : d 1 ≠ 0) (hy : q.Normalises → x 1 ≠ 0 ∧ 0 < (cone q.matrix).mulVec d 2 / d 1) :
    q.core [fin (x 0), fin (x 1), fin (x 2)] [fin (x 0), fin (x 1), fin (x 2)] ⟨fin (s 0), fin (s 1), fin (s 2)⟩ ⟨fin (d 0), fin (d 1), fin (d 2)⟩ =
      ok (List.ofFn fun i => fin ((Adapt.square q.matrix.inverseValues).mulVec ((Adapt.square q.matrix.values).mulVec x) i)) := by
  have hs' : ∀ M : Matrix (Fin 3) (Fin 3) ℝ, ∀ j, M.mulVec s j = l * M.mulVec d j := by
    intro M j
    rw [hsd, show (fun j => l * d j) = l • d from rfl, Matrix.mulVec_smul, Pi.smul_apply, smul_eq_mul]
  have hs1 : s 1 = l * d 1 := by rw [hsd]
  have hs1' : s 1 ≠ 0 := by rw [hs1]; exact mul_ne_zero hl hd1
  have hc : ∀ M : Matrix (Fin 3) (Fin 3) ℝ, ∀ j, M.mulVec s j / s 1 = M.mulVec d j / d 1 := by
    intro M j
    rw [hs' M, hs1, mul_div_mul_left _ _ hl]
  rw [cone_eq] at hn hy
  have hns : ∀ j, (Adapt.square q.matrix.values).mulVec s j ≠ 0 := fun j => by rw [hs']; exact mul_ne_zero hl (hn j)
  have hid : ∀ m, (∀ j, (Adapt.square m.values).mulVec d j ≠ 0) → ∀ j, l * (Adapt.ideal m s d).mulVec x j = (Adapt.square m.inverseValues).mulVec ((Adapt.square m.values).mulVec x) j := by
    intro m hm j
    have : (Adapt.ideal m s d).mulVec x = (1 / l) • (Adapt.square m.inverseValues).mulVec ((Adapt.square m.values).mulVec x) := by
      rw [ideal_eq, ← Matrix.mulVec_smul]
      congr 1
      funext i
      rw [hs', cone_eq, Pi.smul_apply, smul_eq_mul]
      have := hm i
      field_simp
    rw [this, Pi.smul_apply, smul_eq_mul]
    field_simp
  cases hq with
  | simple m =>
    obtain rfl | h := hl1
    · have e := Adapt.simplified_exact m x s d [fin (x 0), fin (x 1), fin (x 2)] hns
      refine e.trans ?_
      have := hid m hn
      simp only [one_mul] at this
      simp only [this]
      rfl
    · cases h
  | bradford =>
    obtain ⟨hx1, hpos⟩ := hy trivial
    have hdn : ∀ i, (Adapt.square AdaptMatrix.bradford.values).mulVec d i / d 1 ≠ 0 := fun i => div_ne_zero (hn i) hd1
    have e := Adapt.bradfordCore_exact x s d (fin (x 0)) (x 1) [fin (x 2)] hx1 hs1' hd1 hns (by rw [hc, div_self (hdn 2)]; norm_num)
    rw [bradfordVec_same _ x s d _ hx1 (hc _) hdn] at e
    exact e
  | cmccat97 f la h =>
    obtain ⟨hx1, hpos⟩ := hy trivial
    have hdn : ∀ i, (Adapt.square AdaptMatrix.cmccat97.values).mulVec d i / d 1 ≠ 0 := fun i => div_ne_zero (hn i) hd1
    have e := Adapt.cmccat97Core_exact f la _ (Adapt.degree97_fin f la h) x s d (fin (x 0)) (x 1) [fin (x 2)] hx1 hs1' hd1 hns (by rw [hc]; exact hpos) hpos
    rw [cmccat97Vec_same _ x s d _ _ hx1 (hc _) hdn] at e
    exact e
  | cmccat2000 f la lr h =>
    have e := Adapt.cmccat2000Core_exact f la lr _ (Adapt.degree2000_fin f la lr h) x s d [fin (x 0), fin (x 1), fin (x 2)] hns hd1
    refine e.trans ?_
    have h1 : s 1 / d 1 = l := by rw [hs1]; field_simp
    have := hid .cmccat2000 hn
    simp only [h1, mul_assoc, this]
    congr 2
    funext j
    congr 1
    show _ = (Adapt.square AdaptMatrix.cmccat2000.inverseValues).mulVec ((Adapt.square AdaptMatrix.cmccat2000.values).mulVec x) j
    ring
  | cat02 f la =>
    obtain rfl | h := hl1
    · have e := Adapt.cat02Core_exact f la _ (Adapt.degree02_fin f la) x s d [fin (x 0), fin (x 1), fin (x 2)] hns
      refine e.trans ?_
      have := hid .cat02 hn
      simp only [one_mul] at this
      simp only [this]
      congr 2
      funext j
      congr 1
      show _ = (Adapt.square AdaptMatrix.cat02.inverseValues).mulVec ((Adapt.square AdaptMatrix.cat02.values).mulVec x) j
      ring
    · cases h

/-- C80 for all eleven methods up to the error of the stored inverse.  For full Bradford and CMCCAT97 the luminance must not be zero (`C100_violated`). -/
theorem C80_partial (q : Method) (hq : q.Admissible) (h : Heap) (i : Nat) (c : Color) (sp u t : Nat) (x s : Fin 3 → ℝ) (hs : Setting h i .xyz c sp u t) (hx : IsXyz c x) (hw : Whites h u t s s)
    (hn : ∀ j, (cone q.matrix).mulVec s j ≠ 0) (hs1 : s 1 ≠ 0) (hy : q.Normalises → x 1 ≠ 0 ∧ 0 < (cone q.matrix).mulVec s 2 / s 1) (hr : ∀ j, 0 ≤ x j ∧ x j ≤ 100) :
    ∃ y, Adapts q h i t c.alpha y ∧ ∀ j, |y j - x j| ≤ tol q.matrix * size x := by
  refine ⟨_, core_run hs hx hw (same_core q hq x s s 1 one_ne_zero (by simp) (Or.inl rfl) hn hs1 hy), fun j => ?_⟩
  refine clip_near ?_ (hr j).1 (hr j).2
  have := Adapt.product_mulVec q.matrix x j
  rwa [← tol_eq] at this

/-- C80 exactly for XYZ scaling. -/
theorem C80_xyz_scale (h : Heap) (i : Nat) (c : Color) (sp u t : Nat) (x s : Fin 3 → ℝ) (hs : Setting h i .xyz c sp u t) (hx : IsXyz c x) (hw : Whites h u t s s) (hn : ∀ j, s j ≠ 0)
    (hr : ∀ j, 0 ≤ x j ∧ x j ≤ 100) : Adapts (.simple .xyz_scale) h i t c.alpha x := by
  obtain ⟨y, hy, he⟩ := C80_partial (.simple .xyz_scale) (.simple _) h i c sp u t x s hs hx hw (by simpa [cone, Method.matrix] using hn) (hn 1) (fun h => h.elim) hr
  have : y = x := by
    funext j
    have := he j
    simp only [Method.matrix, tol, zero_mul] at this
    linarith [abs_nonpos_iff.mp this]
  rwa [← this]

/-- C80 does not hold exactly for any method except XYZ scaling. -/
theorem C80_violated (q : Method) (hq : q.Admissible) (hm : q.matrix ≠ .xyz_scale) (h : Heap) (i : Nat) (c : Color) (sp u t : Nat) (s : Fin 3 → ℝ) (he : s = ![1, 1, 0.5])
    (hs : Setting h i .xyz c sp u t) (hx : IsXyz c s) (hw : Whites h u t s s) : ∃ y, Adapts q h i t c.alpha y ∧ y ≠ s := by
  have hn : ∀ j, (cone q.matrix).mulVec s j ≠ 0 := by
    intro j
    subst he
    rw [cone_eq]
    cases q.matrix <;> fin_cases j <;> simp [Adapt.square, AdaptMatrix.values, Matrix.mulVec, dotProduct, Fin.sum_univ_three] <;> norm_num
  have h1 : s 1 = 1 := by rw [he]; rfl
  refine ⟨_, core_run hs hx hw (same_core q hq s s s 1 one_ne_zero (by simp) (Or.inl rfl) hn (by rw [h1]; norm_num) (fun hnorm => ⟨by rw [h1]; norm_num, ?_⟩)), fun e => ?_⟩
  · rw [h1, div_one, he, cone_eq]
    cases hq <;> first | exact hnorm.elim | skip
    all_goals
      simp [Method.matrix, Adapt.square, AdaptMatrix.values, Matrix.mulVec, dotProduct, Fin.sum_univ_three]
      norm_num
  · obtain ⟨j, h0, h1, h2⟩ := inexact q.matrix hm
    have := congrFun e j
    rw [he, clip_id h0 h1] at this
    exact h2 this

/-! ## C101: only the chromaticity matters to the full methods -/

/-- C101: full Bradford, CMCCAT97 and CMCCAT2000 leave a colour unchanged (up to the error of the stored inverse) when the white points differ only in luminance. -/
theorem C101_partial (q : Method) (hq : q.Admissible) (hrel : q.Relative) (h : Heap) (i : Nat) (c : Color) (sp u t : Nat) (x s d : Fin 3 → ℝ) (l : ℝ) (hl : l ≠ 0) (hsd : s = fun j => l * d j)
    (hs : Setting h i .xyz c sp u t) (hx : IsXyz c x) (hw : Whites h u t s d) (hn : ∀ j, (cone q.matrix).mulVec d j ≠ 0) (hd1 : d 1 ≠ 0)
    (hy : q.Normalises → x 1 ≠ 0 ∧ 0 < (cone q.matrix).mulVec d 2 / d 1) (hr : ∀ j, 0 ≤ x j ∧ x j ≤ 100) :
    ∃ y, Adapts q h i t c.alpha y ∧ ∀ j, |y j - x j| ≤ tol q.matrix * size x := by
  refine ⟨_, core_run hs hx hw (same_core q hq x s d l hl hsd (Or.inr hrel) hn hd1 hy), fun j => ?_⟩
  refine clip_near ?_ (hr j).1 (hr j).2
  have := Adapt.product_mulVec q.matrix x j
  rwa [← tol_eq] at this

/-- C101 fails for `cat02_adaptation`, which computes the luminance ratio but does not use it: doubling the luminance of the white point brightens an equal-energy grey by at least 72 %. -/
theorem C101_violated (h : Heap) (i : Nat) (c : Color) (sp u t : Nat) (x : Fin 3 → ℝ) (la : ℝ) (hla : 0 ≤ la) (hx' : x = ![1, 1, 1]) (hs : Setting h i .xyz c sp u t) (hx : IsXyz c x)
    (hw : Whites h u t ![1, 1, 1] ![2, 2, 2]) : ∃ y, Adapts (.cat02 (fin 1) (fin la)) h i t c.alpha y ∧ ∀ j, 1.72 * x j ≤ y j := by
  have hM : ∀ k : ℝ, ∀ j, (Adapt.square AdaptMatrix.cat02.values).mulVec ![k, k, k] j = k := by
    intro k j
    fin_cases j <;> simp [Adapt.square, AdaptMatrix.values, Matrix.mulVec, dotProduct, Fin.sum_univ_three] <;> ring
  have hN : ∀ k : ℝ, ∀ j, (Adapt.square AdaptMatrix.cat02.inverseValues).mulVec (fun _ => k) j = k := by
    intro k j
    fin_cases j <;> simp [Adapt.square, AdaptMatrix.inverseValues, Matrix.mulVec, dotProduct, Fin.sum_univ_three] <;> ring
  have hn : ∀ j, (Adapt.square AdaptMatrix.cat02.values).mulVec ![1, 1, 1] j ≠ 0 := fun j => by rw [hM]; norm_num
  have e := Adapt.cat02Core_exact 1 la _ (Adapt.degree02_fin 1 la) x ![1, 1, 1] ![2, 2, 2] [fin (x 0), fin (x 1), fin (x 2)] hn
  have hid : (Adapt.ideal .cat02 ![1, 1, 1] ![2, 2, 2]).mulVec x = fun _ => 2 := by
    rw [ideal_eq, cone_eq, hx']
    funext j
    have : (fun i => (Adapt.square AdaptMatrix.cat02.values).mulVec ![1, 1, 1] i * ((Adapt.square AdaptMatrix.cat02.values).mulVec ![2, 2, 2] i / (Adapt.square AdaptMatrix.cat02.values).mulVec ![1, 1, 1] i)) = fun _ => (2 : ℝ) := by
      funext i; rw [hM, hM]; norm_num
    rw [this, hN]
  have hno : (Adapt.square AdaptMatrix.cat02.inverseValues).mulVec ((Adapt.square AdaptMatrix.cat02.values).mulVec x) = fun _ => 1 := by
    have : (Adapt.square AdaptMatrix.cat02.values).mulVec x = fun _ => (1 : ℝ) := by rw [hx']; exact funext (hM 1)
    rw [this]; exact funext (hN 1)
  refine ⟨_, core_run (q := .cat02 (fin 1) (fin la)) hs hx hw e, fun j => ?_⟩
  have hxj : x j = 1 := by rw [hx']; fin_cases j <;> rfl
  rw [hxj, hid, hno]
  set D := max 0 (min 1 (1 * (1 - 1 / 3.6 * Real.exp ((-la - 42) / 92)))) with hD
  have h0 : 0 < Real.exp ((-la - 42) / 92) := Real.exp_pos _
  have h1 : Real.exp ((-la - 42) / 92) ≤ 1 := Real.exp_le_one_iff.mpr (by linarith)
  have hD0 : (0.72 : ℝ) ≤ D := by
    rw [hD]
    refine le_max_of_le_right (le_min (by norm_num) ?_)
    norm_num
    linarith
  have hD1 : D ≤ 1 := max_le (by norm_num) (min_le_left _ _)
  rw [clip_id] <;> linarith

/-! ## C98: the degree of adaptation -/

/-- The degree of adaptation of CAT02 (CIECAM02), of CMCCAT2000 and of CMCCAT97 (CIECAM97s), limited to [0, 1]. -/
noncomputable def AdaptSpec.degreeCat02 (f la : ℝ) : ℝ := max 0 (min 1 (f * (1 - 1 / 3.6 * Real.exp ((-la - 42) / 92))))
/-- See `degreeCat02`. -/
noncomputable def AdaptSpec.degreeCmccat2000 (f la lr : ℝ) : ℝ := max 0 (min 1 (f * (0.08 * Real.logb 10 (0.5 * (la + lr)) + 0.76 - 0.45 * ((la - lr) / (la + lr)))))

omit [FloatModel] [ExactModel] in
theorem AdaptSpec.mix_close {A B A' B' k e a b : ℝ} (hA : |A - A'| ≤ a) (hB : |B - B'| ≤ b) (he : e ≤ 1) : |(k * A + (1 - e) * B) - (k * A' + (1 - e) * B')| ≤ |k| * a + (1 - e) * b := by
  have : (k * A + (1 - e) * B) - (k * A' + (1 - e) * B') = k * (A - A') + (1 - e) * (B - B') := by ring
  rw [this]
  refine (abs_add_le _ _).trans ?_
  rw [abs_mul, abs_mul, abs_of_nonneg (by linarith : (0 : ℝ) ≤ 1 - e)]
  have h1 : |k| * |A - A'| ≤ |k| * a := by gcongr
  have h2 : (1 - e) * |B - B'| ≤ (1 - e) * b := mul_le_mul_of_nonneg_left hB (by linarith)
  linarith

/-- C98 for CAT02: a mixture of the fully adapted and the unchanged colour, weighted with the published degree of adaptation. -/
theorem C98_cat02_partial (f la : ℝ) (h : Heap) (i : Nat) (c : Color) (sp u t : Nat) (x s d : Fin 3 → ℝ) (hs : Setting h i .xyz c sp u t) (hx : IsXyz c x) (hw : Whites h u t s d)
    (hn : ∀ j, (cone .cat02).mulVec s j ≠ 0) :
    ∃ y, Adapts (.cat02 (fin f) (fin la)) h i t c.alpha y ∧
      ∀ j, |y j - clip (degreeCat02 f la * published .cat02 s d x j + (1 - degreeCat02 f la) * x j)| ≤
        1e-5 * (degreeCat02 f la * size (published .cat02 s d x) + (1 - degreeCat02 f la) * size x) := by
  rw [cone_eq] at hn
  have e := Adapt.cat02Core_exact f la _ (Adapt.degree02_fin f la) x s d [fin (x 0), fin (x 1), fin (x 2)] hn
  refine ⟨_, core_run (q := .cat02 (fin f) (fin la)) hs hx hw e, fun j => (clip_close _ _).trans ?_⟩
  have hB := Adapt.product_mulVec .cat02 x j
  have he : degreeCat02 f la ≤ 1 := max_le (by norm_num) (min_le_left _ _)
  have h0 : 0 ≤ degreeCat02 f la := le_max_left _ _
  refine (mix_close (published_close .cat02 s d x j) hB he).trans (le_of_eq ?_)
  show |degreeCat02 f la| * _ + _ = _
  rw [abs_of_nonneg h0]
  simp only [tol, Adapt.slack, size]
  ring

/-- C98 for CMCCAT2000, where the fully adapted part is also scaled by the ratio of the luminances. -/
theorem C98_cmccat2000_partial (f la lr : ℝ) (hl : 0 < la + lr) (h : Heap) (i : Nat) (c : Color) (sp u t : Nat) (x s d : Fin 3 → ℝ) (hs : Setting h i .xyz c sp u t) (hx : IsXyz c x)
    (hw : Whites h u t s d) (hn : ∀ j, (cone .cmccat2000).mulVec s j ≠ 0) (hd : d 1 ≠ 0) :
    ∃ y, Adapts (.cmccat2000 (fin f) (fin la) (fin lr)) h i t c.alpha y ∧
      ∀ j, |y j - clip (degreeCmccat2000 f la lr * (s 1 / d 1) * published .cmccat2000 s d x j + (1 - degreeCmccat2000 f la lr) * x j)| ≤
        1e-5 * (degreeCmccat2000 f la lr * |s 1 / d 1| * size (published .cmccat2000 s d x) + (1 - degreeCmccat2000 f la lr) * size x) := by
  rw [cone_eq] at hn
  have e := Adapt.cmccat2000Core_exact f la lr _ (Adapt.degree2000_fin f la lr hl) x s d [fin (x 0), fin (x 1), fin (x 2)] hn hd
  refine ⟨_, core_run (q := .cmccat2000 (fin f) (fin la) (fin lr)) hs hx hw e, fun j => (clip_close _ _).trans ?_⟩
  have hB := Adapt.product_mulVec .cmccat2000 x j
  have he : degreeCmccat2000 f la lr ≤ 1 := max_le (by norm_num) (min_le_left _ _)
  have h0 : 0 ≤ degreeCmccat2000 f la lr := le_max_left _ _
  refine (mix_close (published_close .cmccat2000 s d x j) hB he).trans (le_of_eq ?_)
  show |degreeCmccat2000 f la lr * (s 1 / d 1)| * _ + _ = _
  rw [abs_mul, abs_of_nonneg h0]
  simp only [tol, Adapt.slack, size]
  ring

/-- C98: with the factor 0 CAT02 does not adapt at all. -/
theorem C98_none_cat02_partial (la : ℝ) (h : Heap) (i : Nat) (c : Color) (sp u t : Nat) (x s d : Fin 3 → ℝ) (hs : Setting h i .xyz c sp u t) (hx : IsXyz c x) (hw : Whites h u t s d)
    (hn : ∀ j, (cone .cat02).mulVec s j ≠ 0) (hr : ∀ j, 0 ≤ x j ∧ x j ≤ 100) : ∃ y, Adapts (.cat02 (fin 0) (fin la)) h i t c.alpha y ∧ ∀ j, |y j - x j| ≤ 1e-5 * size x := by
  obtain ⟨y, hy, he⟩ := C98_cat02_partial 0 la h i c sp u t x s d hs hx hw hn
  refine ⟨y, hy, fun j => ?_⟩
  have hd : degreeCat02 0 la = 0 := by simp [degreeCat02]
  have := he j
  simpa [hd, clip_id (hr j).1 (hr j).2] using this

/-- C98: with the factor 0 CMCCAT2000 does not adapt at all. -/
theorem C98_none_cmccat2000_partial (la lr : ℝ) (hl : 0 < la + lr) (h : Heap) (i : Nat) (c : Color) (sp u t : Nat) (x s d : Fin 3 → ℝ) (hs : Setting h i .xyz c sp u t) (hx : IsXyz c x)
    (hw : Whites h u t s d) (hn : ∀ j, (cone .cmccat2000).mulVec s j ≠ 0) (hd : d 1 ≠ 0) (hr : ∀ j, 0 ≤ x j ∧ x j ≤ 100) :
    ∃ y, Adapts (.cmccat2000 (fin 0) (fin la) (fin lr)) h i t c.alpha y ∧ ∀ j, |y j - x j| ≤ 1e-5 * size x := by
  obtain ⟨y, hy, he⟩ := C98_cmccat2000_partial 0 la lr hl h i c sp u t x s d hs hx hw hn hd
  refine ⟨y, hy, fun j => ?_⟩
  have hd : degreeCmccat2000 0 la lr = 0 := by simp [degreeCmccat2000]
  have := he j
  simpa [hd, clip_id (hr j).1 (hr j).2] using this

/-- C98: once the degree reaches 1, CAT02 gives exactly what the simplified CAT02 method gives. -/
theorem C98_full_cat02 (f la : ℝ) (hf : 1 ≤ f * (1 - 1 / 3.6 * Real.exp ((-la - 42) / 92))) (h : Heap) (i : Nat) (c : Color) (sp u t : Nat) (x s d : Fin 3 → ℝ) (hs : Setting h i .xyz c sp u t)
    (hx : IsXyz c x) (hw : Whites h u t s d) (hn : ∀ j, (cone .cat02).mulVec s j ≠ 0) :
    ∃ y, Adapts (.cat02 (fin f) (fin la)) h i t c.alpha y ∧ Adapts (.simple .cat02) h i t c.alpha y := by
  refine ⟨_, ?_, simple_run hs hx hw hn⟩
  rw [cone_eq] at hn
  have e := Adapt.cat02Core_exact f la _ (Adapt.degree02_fin f la) x s d [fin (x 0), fin (x 1), fin (x 2)] hn
  rw [min_eq_left hf, max_eq_right (by norm_num)] at e
  have := core_run (q := .cat02 (fin f) (fin la)) hs hx hw e
  simpa using this

/-- C98 fails for CMCCAT97: with the factor 0 (degree 0) a colour still changes, because the blue response is raised to the power of the white point ratio in any case. -/
theorem C98_violated (la : ℝ) (hla : 0 ≤ la) (h : Heap) (i : Nat) (c : Color) (sp u t : Nat) (x : Fin 3 → ℝ) (hx' : x = ![1, 1, 4.0296 / 1.0296]) (hs : Setting h i .xyz c sp u t) (hx : IsXyz c x)
    (hw : Whites h u t ![1, 1, 2.0296 / 1.0296] ![1, 1, 1]) : ∃ y, Adapts (.cmccat97 (fin 0) (fin la)) h i t c.alpha y ∧ x 2 + 0.2 < y 2 := by
  have hMs : (Adapt.square AdaptMatrix.cmccat97.values).mulVec ![1, 1, 2.0296 / 1.0296] 2 = 2 := by
    simp [Adapt.square, AdaptMatrix.values, Matrix.mulVec, dotProduct, Fin.sum_univ_three]; norm_num
  have hMd : (Adapt.square AdaptMatrix.cmccat97.values).mulVec ![1, 1, 1] 2 = 1 := by
    simp [Adapt.square, AdaptMatrix.values, Matrix.mulVec, dotProduct, Fin.sum_univ_three]; norm_num
  have hMx : (Adapt.square AdaptMatrix.cmccat97.values).mulVec x 2 = 4 := by
    rw [hx']
    simp [Adapt.square, AdaptMatrix.values, Matrix.mulVec, dotProduct, Fin.sum_univ_three]; norm_num
  have hn : ∀ j, (Adapt.square AdaptMatrix.cmccat97.values).mulVec ![1, 1, 2.0296 / 1.0296] j ≠ 0 := by
    intro j
    fin_cases j <;> simp [Adapt.square, AdaptMatrix.values, Matrix.mulVec, dotProduct, Fin.sum_univ_three] <;> norm_num
  have hx1 : x 1 = 1 := by rw [hx']; rfl
  have hx2 : x 2 = 4.0296 / 1.0296 := by rw [hx']; rfl
  have e := Adapt.cmccat97Core_exact 0 la _ (Adapt.degree97_fin 0 la hla) x ![1, 1, 2.0296 / 1.0296] ![1, 1, 1] (fin (x 0)) (x 1) [fin (x 2)] (by rw [hx1]; norm_num)
    (by norm_num) (by norm_num) hn (by rw [hMs]; norm_num) (by rw [hMd]; norm_num)
  have hdeg : max 0 (min 1 ((0 : ℝ) - 0 / (1 + 2 * la ^ (0.25 : ℝ) + la ^ (2 : ℝ) / 300))) = 0 := by simp
  rw [hdeg] at e
  refine ⟨_, core_run (q := .cmccat97 (fin 0) (fin la)) hs hx hw e, ?_⟩
  set p : ℝ := (2 : ℝ) ^ (0.0834 : ℝ) with hp
  have hp1 : 1.05 ≤ p := by
    have h1 : (1.05 : ℝ) ^ (12 : ℕ) ≤ 2 := by norm_num
    have h2 : (1.05 : ℝ) ≤ 2 ^ ((1 : ℝ) / 12) := by
      have h3 := Real.rpow_le_rpow (by positivity) h1 (by norm_num : (0 : ℝ) ≤ 1 / 12)
      rwa [← Real.rpow_natCast, ← Real.rpow_mul (by norm_num), show ((12 : ℕ) : ℝ) * (1 / 12) = 1 by norm_num, Real.rpow_one] at h3
    exact h2.trans (Real.rpow_le_rpow_of_exponent_le (by norm_num) (by norm_num))
  have hp2 : p ≤ 2 := by
    have := Real.rpow_le_rpow_of_exponent_le (by norm_num : (1 : ℝ) ≤ 2) (by norm_num : (0.0834 : ℝ) ≤ 1)
    rwa [Real.rpow_one] at this
  have hq1 : 4.28 ≤ (4 : ℝ) ^ p := by
    have h1 : (1.07 : ℝ) ^ (20 : ℕ) ≤ 4 := by norm_num
    have h2 : (1.07 : ℝ) ≤ 4 ^ ((1 : ℝ) / 20) := by
      have h3 := Real.rpow_le_rpow (by positivity) h1 (by norm_num : (0 : ℝ) ≤ 1 / 20)
      rwa [← Real.rpow_natCast, ← Real.rpow_mul (by norm_num), show ((20 : ℕ) : ℝ) * (1 / 20) = 1 by norm_num, Real.rpow_one] at h3
    have h4 : (4 : ℝ) ^ (1.05 : ℝ) ≤ 4 ^ p := Real.rpow_le_rpow_of_exponent_le (by norm_num) hp1
    have h5 : (4 : ℝ) ^ (1.05 : ℝ) = 4 * 4 ^ ((1 : ℝ) / 20) := by
      rw [show (1.05 : ℝ) = 1 + 1 / 20 by norm_num, Real.rpow_add (by norm_num), Real.rpow_one]
    linarith
  have hq2 : (4 : ℝ) ^ p ≤ 16 := by
    have h4 : (4 : ℝ) ^ p ≤ 4 ^ (2 : ℝ) := Real.rpow_le_rpow_of_exponent_le (by norm_num) hp2
    have h5 : (4 : ℝ) ^ (2 : ℝ) = 16 := by
      rw [show (2 : ℝ) = ((2 : ℕ) : ℝ) by norm_num, Real.rpow_natCast]; norm_num
    linarith
  have hv : Adapt.cmccat97Vec (Adapt.square AdaptMatrix.cmccat97.values) x ![1, 1, 2.0296 / 1.0296] ![1, 1, 1] (x 1) 0 =
      ![(Adapt.square AdaptMatrix.cmccat97.values).mulVec x 0, (Adapt.square AdaptMatrix.cmccat97.values).mulVec x 1, (4 : ℝ) ^ p] := by
    have hsp : Adapt.signedPow 4 p = 4 ^ p := by
      unfold Adapt.signedPow
      rw [if_neg (by norm_num), abs_of_pos (by norm_num)]
    have s1 : (![1, 1, 2.0296 / 1.0296] : Fin 3 → ℝ) 1 = 1 := rfl
    have d1 : (![1, 1, 1] : Fin 3 → ℝ) 1 = 1 := rfl
    simp only [Adapt.cmccat97Vec, hx1, s1, d1, div_one, hMs, hMd, hMx, one_mul, zero_mul, zero_add, sub_zero, mul_one, ← hp, hsp]
  rw [hv]
  set M := Adapt.square AdaptMatrix.cmccat97.values with hM
  have h0 : M.mulVec x 0 = 0.8951 + 0.2664 - 0.1614 * (4.0296 / 1.0296) := by
    rw [hM, hx']; simp [Adapt.square, AdaptMatrix.values, Matrix.mulVec, dotProduct, Fin.sum_univ_three]; norm_num
  have h1 : M.mulVec x 1 = -0.7502 + 1.7135 + 0.0367 * (4.0296 / 1.0296) := by
    rw [hM, hx']; simp [Adapt.square, AdaptMatrix.values, Matrix.mulVec, dotProduct, Fin.sum_univ_three]
  have hr : (Adapt.square AdaptMatrix.cmccat97.inverseValues).mulVec ![M.mulVec x 0, M.mulVec x 1, (4 : ℝ) ^ p] 2 = -0.00853 * M.mulVec x 0 + 0.04004 * M.mulVec x 1 + 0.96849 * 4 ^ p := by
    simp [Adapt.square, AdaptMatrix.inverseValues, Matrix.mulVec, dotProduct, Fin.sum_univ_three]
  rw [hr, h0, h1, hx2]
  generalize (4 : ℝ) ^ p = P at hq1 hq2
  rw [clip_id] <;> norm_num at * <;> linarith

/-! ## C100: black -/

/-- C100 for the simplified methods, CAT02 and CMCCAT2000: black stays exactly black. -/
theorem C100_partial (q : Method) (hq : q.Admissible) (hq' : ¬ q.Normalises) (h : Heap) (i : Nat) (c : Color) (sp u t : Nat) (s d : Fin 3 → ℝ) (hs : Setting h i .xyz c sp u t)
    (hx : IsXyz c fun _ => 0) (hw : Whites h u t s d) (hn : ∀ j, (cone q.matrix).mulVec s j ≠ 0) (hd1 : d 1 ≠ 0) : Adapts q h i t c.alpha fun _ => 0 := by
  have z : ∀ M : Matrix (Fin 3) (Fin 3) ℝ, M.mulVec (fun _ => (0 : ℝ)) = fun _ => 0 := fun M => Matrix.mulVec_zero M
  have hc : clip 0 = 0 := clip_id le_rfl (by norm_num)
  rw [cone_eq] at hn
  have : Adapts q h i t c.alpha fun _ => clip 0 := by
    refine core_run (v := fun _ => 0) hs hx hw ?_
    cases hq with
    | simple m =>
      refine (Adapt.simplified_exact m (fun _ => 0) s d [fin 0, fin 0, fin 0] hn).trans ?_
      simp only [z]; rfl
    | bradford => exact absurd trivial hq'
    | cmccat97 f la h => exact absurd trivial hq'
    | cmccat2000 f la lr h =>
      refine (Adapt.cmccat2000Core_exact f la lr _ (Adapt.degree2000_fin f la lr h) (fun _ => 0) s d [fin 0, fin 0, fin 0] hn hd1).trans ?_
      simp only [z, mul_zero, add_zero]
    | cat02 f la =>
      refine (Adapt.cat02Core_exact f la _ (Adapt.degree02_fin f la) (fun _ => 0) s d [fin 0, fin 0, fin 0] hn).trans ?_
      simp only [z, mul_zero, add_zero]
  rwa [hc] at this

/-! ## C102: there and back -/

omit [FloatModel] [ExactModel] in
theorem AdaptSpec.published_sub (m : AdaptMatrix) (s d x y : Fin 3 → ℝ) : published m s d (fun j => x j - y j) = fun j => published m s d x j - published m s d y j := by
  have : (fun j => x j - y j) = x - y := rfl
  unfold published
  rw [this, Matrix.mulVec_sub]
  have e : (fun i => ((cone m).mulVec x - (cone m).mulVec y) i * ((cone m).mulVec d i / (cone m).mulVec s i)) =
      (fun i => (cone m).mulVec x i * ((cone m).mulVec d i / (cone m).mulVec s i)) - fun i => (cone m).mulVec y i * ((cone m).mulVec d i / (cone m).mulVec s i) := by
    funext i
    simp only [Pi.sub_apply]
    ring
  rw [e, Matrix.mulVec_sub]
  rfl

omit [FloatModel] [ExactModel] in
theorem AdaptSpec.published_inverse (m : AdaptMatrix) (s d x : Fin 3 → ℝ) (hs : ∀ j, (cone m).mulVec s j ≠ 0) (hd : ∀ j, (cone m).mulVec d j ≠ 0) : published m d s (published m s d x) = x := by
  refine cone_inv m _ _ fun i => ?_
  unfold published
  rw [Matrix.mulVec_mulVec, Matrix.mul_nonsing_inv _ (cone_unit m), Matrix.one_mulVec]
  have := hs i
  have := hd i
  field_simp

omit [FloatModel] [ExactModel] in
theorem AdaptSpec.size_close {v : Fin 3 → ℝ} {e : ℝ} (h : ∀ j, |v j| ≤ e) : size v ≤ 3 * e := by
  unfold size; linarith [h 0, h 1, h 2]

omit [FloatModel] [ExactModel] in
theorem AdaptSpec.le_size (v : Fin 3 → ℝ) (j : Fin 3) : |v j| ≤ size v := by
  unfold size
  fin_cases j <;> simp <;> linarith [abs_nonneg (v 0), abs_nonneg (v 1), abs_nonneg (v 2)]

omit [FloatModel] [ExactModel] in
theorem AdaptSpec.size_sub (x y : Fin 3 → ℝ) : size x ≤ size y + size fun j => x j - y j := by
  unfold size
  have : ∀ a b : ℝ, |a| ≤ |b| + |a - b| := fun a b => by
    have := abs_add_le b (a - b)
    rwa [add_sub_cancel] at this
  linarith [this (x 0) (y 0), this (x 1) (y 1), this (x 2) (y 2)]

/-- C102 for the simplified methods: adapting to another white point and back to the first gives the original colour, up to the error of the stored inverse (for XYZ scaling exactly, `tol` is 0).
`K` bounds the norm of the way back.  No intermediate component may be outside the range. -/
theorem C102_partial (m : AdaptMatrix) (h : Heap) (i : Nat) (c : Color) (sp u t a b : Nat) (x s d : Fin 3 → ℝ) (K : ℝ) (hs : Setting h i .xyz c sp u t) (hx : IsXyz c x) (hw : Whites h u t s d)
    (hns : ∀ j, (cone m).mulVec s j ≠ 0) (hnd : ∀ j, (cone m).mulVec d j ≠ 0) (hK : ∀ v, size (published m d s v) ≤ K * size v) (hr : ∀ j, 0 ≤ x j ∧ x j ≤ 100)
    (hp : ∀ j, 0 ≤ published m s d x j ∧ published m s d x j ≤ 100) (ha : a ≠ sp) :
    ∃ k h' k' h'' r y, (Method.simple m).fn a (some i) (some t) h = (ok (some k), h') ∧ (Method.simple m).fn b (some k) (some u) h' = (ok (some k'), h'') ∧ h''.colors[k']? = some r ∧
      IsXyz r y ∧ r.alpha = c.alpha ∧ (h''.world.spaces b).white = some u ∧ ∀ j, |y j - x j| ≤ tol m * (K * (4 + 3 * tol m) * size (published m s d x)) := by
  have hK0 : 0 ≤ K := by
    by_contra hneg
    have h1 := hK d
    have h2 : 0 ≤ size (published m d s d) := by unfold size; positivity
    have h3 : 0 < size d := by
      rcases (by unfold size; positivity : (0 : ℝ) ≤ size d).lt_or_eq with h | h
      · exact h
      · exfalso
        have : d = 0 := by
          funext j
          have := le_size d j
          rw [← h] at this
          exact abs_nonpos_iff.mp this
        exact hnd 0 (by rw [this]; simp)
    nlinarith
  obtain ⟨y, hy, he⟩ := C97_partial m h i c sp u t x s d hs hx hw hns
  obtain ⟨k, r, h', e1, hk, -, hr1, hal, hsp⟩ := hy a
  obtain ⟨k2, r2, h2, e2, hk2, -, hre, hu2, -, -, hwh, -⟩ := C81_partial (.simple m) h i .xyz c sp u t a hs (by simp) (by simp) (fun h => h.elim) ha
  rw [e1] at e2
  simp only [Prod.mk.injEq, Outcome.ok.injEq, Option.some.injEq] at e2
  obtain ⟨rfl, rfl⟩ := e2
  have hs2 : Setting h' k .xyz r a t u := ⟨hk, hr1.col, hsp, hu2, hre.white, hs.other.symm⟩
  have hw2 : Whites h' t u d s := ⟨by rw [hwh]; exact hw.target, by rw [hwh]; exact hw.source⟩
  obtain ⟨z, hz, hez⟩ := C97_partial m h' k r a t u y d s hs2 hr1 hw2 hnd
  obtain ⟨k', r', h'', e3, hk', -, hr3, hal3, hsp3⟩ := hz b
  obtain ⟨f, x4, v0, v1, v2, d4, r4, k4, h4, hf, -, -, hre4, -, hrun⟩ := method_run (.simple m) hs2 ⟨by simp, by simp⟩ (fun h => h.elim) b
  have e4 : (Method.simple m).fn b (some k) (some u) h' = (ok (some k4), h4) := by rw [hf]; exact hrun.run
  rw [e3] at e4
  simp only [Prod.mk.injEq, Outcome.ok.injEq, Option.some.injEq] at e4
  obtain ⟨rfl, rfl⟩ := e4
  refine ⟨k, h', k', h'', r', z, e1, e3, hk', hr3, hal3.trans hal, by rw [hrun.world]; simp [Adapt.extend, hre4.white], fun j => ?_⟩
  set S := size (published m s d x) with hS
  set T := tol m with hT
  have hT0 : 0 ≤ T := tol_nonneg m
  have hS0 : 0 ≤ S := by rw [hS]; unfold size; positivity
  have d1 : ∀ j, |y j - published m s d x j| ≤ T * S := fun j => by
    have := he j
    rwa [clip_id (hp j).1 (hp j).2] at this
  have d2 : size (fun j => y j - published m s d x j) ≤ 3 * (T * S) := size_close d1
  have d3 : |published m d s y j - x j| ≤ K * (3 * (T * S)) := by
    have e := congrFun (published_sub m d s y (published m s d x)) j
    rw [published_inverse m s d x hns hnd] at e
    rw [← e]
    exact (le_size _ j).trans ((hK _).trans (mul_le_mul_of_nonneg_left d2 hK0))
  have d4 : size (published m d s y) ≤ K * (S + 3 * (T * S)) :=
    (hK y).trans (mul_le_mul_of_nonneg_left ((size_sub y (published m s d x)).trans (by linarith)) hK0)
  have d5 : |z j - x j| ≤ |z j - clip (published m d s y j)| + |published m d s y j - x j| := by
    have h1 := clip_close (published m d s y j) (x j)
    rw [clip_id (hr j).1 (hr j).2] at h1
    have h2 := abs_add_le (z j - clip (published m d s y j)) (clip (published m d s y j) - x j)
    rw [sub_add_sub_cancel] at h2
    linarith
  have d6 := hez j
  have d7 : T * size (published m d s y) ≤ T * (K * (S + 3 * (T * S))) := mul_le_mul_of_nonneg_left d4 hT0
  calc |z j - x j| ≤ T * (K * (S + 3 * (T * S))) + K * (3 * (T * S)) := by linarith
    _ = _ := by ring

end exact

/-! ## C100 fails for full Bradford and CMCCAT97 -/

section every
variable [FloatModel]

/-- Zero or not a number. -/
def AdaptSpec.Void (x : Fl) : Prop := x = fin 0 ∨ x = nan

theorem AdaptSpec.void_mul (a : Fl) : Void (a * fin 0) := by
  cases a
  · right; rfl
  · right; exact infOf_zero
  · right
    show infOf (-0) = nan
    simp
  · left; rw [fin_mul, mul_zero, FloatModel.rnd_zero]

theorem AdaptSpec.void_add {a b : Fl} (ha : Void a) (hb : Void b) : Void (a + b) := by
  rcases ha with rfl | rfl <;> rcases hb with rfl | rfl
  · left; rw [fin_add, add_zero, FloatModel.rnd_zero]
  · right; simp
  · right; simp
  · right; simp

theorem AdaptSpec.void_div {a : Fl} (ha : Void a) : a / fin 0 = nan := by
  rcases ha with rfl | rfl <;> simp

/-- C100 fails for `bradford_adaptation` and `cmccat97_adaptation`, which divide by the luminance: black becomes (100, 100, 100).  Every arithmetic. -/
theorem C100_violated (q : Method) (hq : q.Normalises) (h : Heap) (i : Nat) (c : Color) (sp u t : Nat) (hs : Setting h i .xyz c sp u t) (hx : IsXyz c fun _ => 0) :
    Adapts q h i t c.alpha fun _ => 100 := by
  intro a
  have row : ∀ a b c : Fl, (0 + a * fin 0 + b * fin 0 + c * fin 0) / fin 0 = nan := fun a b c =>
    void_div (void_add (void_add (void_add (Or.inl zero_def) (void_mul a)) (void_mul b)) (void_mul c))
  have key : q.core [fin 0, fin 0, fin 0] [fin 0, fin 0, fin 0] (h.world.whites u).tri (h.world.whites t).tri = ok [nan, nan, nan] := by
    have hv : Mat.vget [fin 0, fin 0, fin 0] 1 = ok (fin 0) := rfl
    have h3 : ∀ a b c, Adapt.three [a, b, c] = ok (a, b, c) := fun _ _ _ => rfl
    rcases q with m | _ | ⟨f, la⟩ | _ | _
    · exact hq.elim
    · show Adapt.bradfordCore _ _ _ _ = _
      obtain ⟨a, b, c, d', e, f, g, i, j, h1⟩ := Adapt.mat_three .bradford
      obtain ⟨a', b', c', d'', e', f', g', i', j', h2⟩ := Adapt.inv_three .bradford
      unfold Adapt.bradfordCore
      rw [h1, h2]
      simp only [ok_bind, Mat.mulVec_shape3, h3, hv, row, nan_div, mul_nan, nan_mul, add_nan, nan_add]
    · show Adapt.cmccat97Core f la _ _ _ _ = _
      obtain ⟨a, b, c, d', e, f', g, i, j, h1⟩ := Adapt.mat_three .cmccat97
      obtain ⟨a', b', c', d'', e', f'', g', i', j', h2⟩ := Adapt.inv_three .cmccat97
      unfold Adapt.cmccat97Core
      rw [h1, h2]
      simp only [ok_bind, Mat.mulVec_shape3, h3, hv, row, nan_div, mul_nan, nan_mul, add_nan, nan_add]
    · exact hq.elim
    · exact hq.elim
  obtain ⟨k, h', e, hk, hn⟩ := core_run0 hs hx key a
  refine ⟨k, _, h', e, hk, hn, ⟨Adapt.xyz_color _ _ _ _ _, ?_⟩, rfl, rfl⟩
  have := Color.clamp_nan 100 0 (by norm_num)
  simp [Color.mkXyz, lit_def, zero_def, this]

end every

/-! ## Examples -/

/-- A memory with the colour `c` whose white point is `s`; all other white points are `d`. -/
noncomputable def AdaptSpec.demo2 [FloatModel] (w : World) (c : Color) (s d : Fin 3 → ℝ) : Heap :=
  ⟨{ w with
      whites := fun n => if n = 0 then ⟨⟨1, 1, 1⟩, ⟨fin (s 0), fin (s 1), fin (s 2)⟩⟩ else ⟨⟨1, 1, 1⟩, ⟨fin (d 0), fin (d 1), fin (d 2)⟩⟩
      spaces := fun _ => ⟨⟨1, 0, 0⟩, ⟨0, 1, 0⟩, ⟨0, 0, 1⟩, some 0, ⟨3, 3, [[1, 0, 0], [0, 1, 0], [0, 0, 1]]⟩, ⟨3, 3, [[1, 0, 0], [0, 1, 0], [0, 0, 1]]⟩, some 0⟩ }, [c]⟩

/-- The XYZ colour `x` with alpha value 1. -/
noncomputable def AdaptSpec.xyzOf (x : Fin 3 → ℝ) : Color := ⟨.xyz, .xyz, [fin (x 0), fin (x 1), fin (x 2)], 1, 100, 0, some 0⟩

theorem AdaptSpec.xyzOf_eq [FloatModel] (x : Fin 3 → ℝ) (hr : ∀ j, 0 ≤ x j ∧ x j ≤ 100) : Color.construct .xyz [fin (x 0), fin (x 1), fin (x 2)] 1 (some 0) = ok (xyzOf x) := by
  rw [Color.construct_xyz]
  have : ∀ j, Color.clamp (fin (x j)) 100 0 = fin (x j) := fun j => by
    simp only [lit_def, zero_def, Color.clamp_fin, min_eq_left (hr j).2, max_eq_left (hr j).1]
  simp only [Color.mkXyz, this, xyzOf]

theorem AdaptSpec.demo2_ok [FloatModel] (w : World) (x s d : Fin 3 → ℝ) (hr : ∀ j, 0 ≤ x j ∧ x j ≤ 100) :
    Setting (demo2 w (xyzOf x) s d) 0 .xyz (xyzOf x) 0 0 1 ∧ IsXyz (xyzOf x) x ∧ Whites (demo2 w (xyzOf x) s d) 0 1 s d := by
  have hf := Conv.construct_result (t := .xyz) (by simp) rfl (xyzOf_eq x hr)
  refine ⟨⟨rfl, hf.col, rfl, ⟨by simp [demo2], by simp [demo2], Mat.mk_shape3 _ _ _ _ _ _ _ _ _, Mat.mk_shape3 _ _ _ _ _ _ _ _ _⟩, rfl, by simp⟩, ⟨hf.col, rfl⟩, ⟨rfl, rfl⟩⟩

theorem AdaptSpec.cone_grey (m : AdaptMatrix) (j : Fin 3) : 0 < (cone m).mulVec ![1, 1, 1] j := by
  rw [cone_eq]
  cases m <;> fin_cases j <;> simp [Adapt.square, AdaptMatrix.values, Matrix.mulVec, dotProduct, Fin.sum_univ_three] <;> norm_num

theorem AdaptSpec.cone_other (m : AdaptMatrix) (j : Fin 3) : 0 < (cone m).mulVec ![0.9, 1, 0.8] j := by
  rw [cone_eq]
  cases m <;> fin_cases j <;> simp [Adapt.square, AdaptMatrix.values, Matrix.mulVec, dotProduct, Fin.sum_univ_three] <;> norm_num

/-- C97 and C79: a colour and twenty times the white point, from (1, 1, 1) to (0.9, 1, 0.8). -/
example [FloatModel] [ExactModel] (w : World) (m : AdaptMatrix) :
    (∃ y, Adapts (.simple m) (demo2 w (xyzOf ![50, 40, 30]) ![1, 1, 1] ![0.9, 1, 0.8]) 0 1 1 y ∧
      ∀ j, |y j - clip (published m ![1, 1, 1] ![0.9, 1, 0.8] ![50, 40, 30] j)| ≤ tol m * size (published m ![1, 1, 1] ![0.9, 1, 0.8] ![50, 40, 30])) ∧
    ∃ y, Adapts (.simple m) (demo2 w (xyzOf fun j => 20 * (![1, 1, 1] : Fin 3 → ℝ) j) ![1, 1, 1] ![0.9, 1, 0.8]) 0 1 1 y ∧
      ∀ j, |y j - 20 * (![0.9, 1, 0.8] : Fin 3 → ℝ) j| ≤ tol m * size fun j => 20 * (![0.9, 1, 0.8] : Fin 3 → ℝ) j := by
  obtain ⟨h1, h2, h3⟩ := demo2_ok w ![50, 40, 30] ![1, 1, 1] ![0.9, 1, 0.8] (by intro j; fin_cases j <;> norm_num)
  obtain ⟨g1, g2, g3⟩ := demo2_ok w (fun j => 20 * (![1, 1, 1] : Fin 3 → ℝ) j) ![1, 1, 1] ![0.9, 1, 0.8] (by intro j; fin_cases j <;> norm_num)
  exact ⟨C97_partial m _ 0 _ 0 0 1 _ _ _ h1 h2 h3 fun j => (cone_grey m j).ne',
    C79_partial m _ 0 _ 0 0 1 _ _ 20 g1 g2 g3 (fun j => (cone_grey m j).ne') (by intro j; fin_cases j <;> norm_num)⟩

/-- C97 for the full methods. -/
example [FloatModel] [ExactModel] (w : World) :
    (∃ y, Adapts .bradford (demo2 w (xyzOf ![50, 40, 30]) ![1, 1, 1] ![0.9, 1, 0.8]) 0 1 1 y ∧
      ∀ j, |y j - clip (publishedBradford ![1, 1, 1] ![0.9, 1, 0.8] ![50, 40, 30] j)| ≤ 8e-8 * size (publishedBradford ![1, 1, 1] ![0.9, 1, 0.8] ![50, 40, 30])) ∧
    ∃ y, Adapts (.cmccat97 (fin 1) (fin 50)) (demo2 w (xyzOf ![50, 40, 30]) ![1, 1, 1] ![0.9, 1, 0.8]) 0 1 1 y ∧
      ∀ j, |y j - clip (publishedCmccat97 (degreeCmccat97 1 50) ![1, 1, 1] ![0.9, 1, 0.8] ![50, 40, 30] j)| ≤
        1e-5 * size (publishedCmccat97 (degreeCmccat97 1 50) ![1, 1, 1] ![0.9, 1, 0.8] ![50, 40, 30]) := by
  obtain ⟨h1, h2, h3⟩ := demo2_ok w ![50, 40, 30] ![1, 1, 1] ![0.9, 1, 0.8] (by intro j; fin_cases j <;> norm_num)
  exact ⟨C97_bradford_partial _ 0 _ 0 0 1 _ _ _ h1 h2 h3 (by norm_num) (by norm_num) (by norm_num) (fun j => (cone_grey _ j).ne')
      (div_pos (div_pos (cone_grey _ 2) (by norm_num)) (div_pos (cone_other _ 2) (by norm_num))),
    C97_cmccat97_partial 1 50 (by norm_num) _ 0 _ 0 0 1 _ _ _ h1 h2 h3 (by norm_num) (by norm_num) (by norm_num) (fun j => (cone_grey _ j).ne')
      (div_pos (cone_grey _ 2) (by norm_num)) (div_pos (cone_other _ 2) (by norm_num))⟩

/-- C79 for XYZ scaling and its failure. -/
example [FloatModel] [ExactModel] (w : World) (m : AdaptMatrix) (hm : m ≠ .xyz_scale) :
    Adapts (.simple .xyz_scale) (demo2 w (xyzOf fun j => 20 * (![1, 1, 1] : Fin 3 → ℝ) j) ![1, 1, 1] ![0.9, 1, 0.8]) 0 1 1 (fun j => 20 * (![0.9, 1, 0.8] : Fin 3 → ℝ) j) ∧
    ∃ y, Adapts (.simple m) (demo2 w (xyzOf ![1, 1, 0.5]) ![1, 1, 0.5] ![1, 1, 0.5]) 0 1 1 y ∧ y ≠ ![1, 1, 0.5] := by
  obtain ⟨g1, g2, g3⟩ := demo2_ok w (fun j => 20 * (![1, 1, 1] : Fin 3 → ℝ) j) ![1, 1, 1] ![0.9, 1, 0.8] (by intro j; fin_cases j <;> norm_num)
  obtain ⟨h1, h2, h3⟩ := demo2_ok w ![1, 1, 0.5] ![1, 1, 0.5] ![1, 1, 0.5] (by intro j; fin_cases j <;> norm_num)
  exact ⟨C79_xyz_scale _ 0 _ 0 0 1 _ _ 20 g1 g2 g3 (by intro j; fin_cases j <;> norm_num) (by intro j; fin_cases j <;> norm_num),
    C79_violated m hm _ 0 _ 0 0 1 _ rfl h1 h2 h3⟩

/-- C80 and C101: equal white points and white points that differ only in luminance, for instance with CMCCAT97. -/
example [FloatModel] [ExactModel] (w : World) :
    (∃ y, Adapts (.cmccat97 (fin 1) (fin 50)) (demo2 w (xyzOf ![50, 40, 30]) ![0.9, 1, 0.8] ![0.9, 1, 0.8]) 0 1 1 y ∧ ∀ j, |y j - (![50, 40, 30] : Fin 3 → ℝ) j| ≤ 1e-5 * size ![50, 40, 30]) ∧
    (∃ y, Adapts (.cmccat97 (fin 1) (fin 50)) (demo2 w (xyzOf ![50, 40, 30]) (fun j => 3 * (![0.9, 1, 0.8] : Fin 3 → ℝ) j) ![0.9, 1, 0.8]) 0 1 1 y ∧
      ∀ j, |y j - (![50, 40, 30] : Fin 3 → ℝ) j| ≤ 1e-5 * size ![50, 40, 30]) ∧
    ∃ y, Adapts (.cmccat97 (fin 1) (fin 50)) (demo2 w (xyzOf ![1, 1, 0.5]) ![1, 1, 0.5] ![1, 1, 0.5]) 0 1 1 y ∧ y ≠ ![1, 1, 0.5] := by
  obtain ⟨h1, h2, h3⟩ := demo2_ok w ![50, 40, 30] ![0.9, 1, 0.8] ![0.9, 1, 0.8] (by intro j; fin_cases j <;> norm_num)
  obtain ⟨g1, g2, g3⟩ := demo2_ok w ![50, 40, 30] (fun j => 3 * (![0.9, 1, 0.8] : Fin 3 → ℝ) j) ![0.9, 1, 0.8] (by intro j; fin_cases j <;> norm_num)
  obtain ⟨k1, k2, k3⟩ := demo2_ok w ![1, 1, 0.5] ![1, 1, 0.5] ![1, 1, 0.5] (by intro j; fin_cases j <;> norm_num)
  have hc := cone_other .cmccat97
  have hy : (![50, 40, 30] : Fin 3 → ℝ) 1 ≠ 0 ∧ 0 < (cone .cmccat97).mulVec ![0.9, 1, 0.8] 2 / (![0.9, 1, 0.8] : Fin 3 → ℝ) 1 := ⟨by norm_num, div_pos (hc 2) (by norm_num)⟩
  exact ⟨C80_partial (.cmccat97 (fin 1) (fin 50)) (.cmccat97 _ _ (by norm_num)) _ 0 _ 0 0 1 _ _ h1 h2 h3 (fun j => (hc j).ne') (by norm_num) (fun _ => hy) (by intro j; fin_cases j <;> norm_num),
    C101_partial (.cmccat97 (fin 1) (fin 50)) (.cmccat97 _ _ (by norm_num)) (.cmccat97 _ _) _ 0 _ 0 0 1 _ _ _ 3 (by norm_num) rfl g1 g2 g3 (fun j => (hc j).ne') (by norm_num) (fun _ => hy)
      (by intro j; fin_cases j <;> norm_num),
    C80_violated (.cmccat97 (fin 1) (fin 50)) (.cmccat97 _ _ (by norm_num)) (by simp [Method.matrix]) _ 0 _ 0 0 1 _ rfl k1 k2 k3⟩

/-- C80 for XYZ scaling and for the same pointer. -/
example [FloatModel] [ExactModel] (w : World) (q : Method) :
    Adapts (.simple .xyz_scale) (demo2 w (xyzOf ![50, 40, 30]) ![0.9, 1, 0.8] ![0.9, 1, 0.8]) 0 1 1 ![50, 40, 30] ∧
    q.fn 7 (some 0) (some 0) (demo2 w (xyzOf ![50, 40, 30]) ![1, 1, 1] ![0.9, 1, 0.8]) = (ok (some 0), demo2 w (xyzOf ![50, 40, 30]) ![1, 1, 1] ![0.9, 1, 0.8]) := by
  obtain ⟨h1, h2, h3⟩ := demo2_ok w ![50, 40, 30] ![0.9, 1, 0.8] ![0.9, 1, 0.8] (by intro j; fin_cases j <;> norm_num)
  exact ⟨C80_xyz_scale _ 0 _ 0 0 1 _ _ h1 h2 h3 (by intro j; fin_cases j <;> norm_num) (by intro j; fin_cases j <;> norm_num), C80_same_pointer q _ 0 _ 0 0 7 rfl rfl rfl⟩

/-- C101 and C98 fail for these colours. -/
example [FloatModel] [ExactModel] (w : World) :
    (∃ y, Adapts (.cat02 (fin 1) (fin 50)) (demo2 w (xyzOf ![1, 1, 1]) ![1, 1, 1] ![2, 2, 2]) 0 1 1 y ∧ ∀ j, 1.72 * (![1, 1, 1] : Fin 3 → ℝ) j ≤ y j) ∧
    ∃ y, Adapts (.cmccat97 (fin 0) (fin 50)) (demo2 w (xyzOf ![1, 1, 4.0296 / 1.0296]) ![1, 1, 2.0296 / 1.0296] ![1, 1, 1]) 0 1 1 y ∧
      (![1, 1, 4.0296 / 1.0296] : Fin 3 → ℝ) 2 + 0.2 < y 2 := by
  obtain ⟨h1, h2, h3⟩ := demo2_ok w ![1, 1, 1] ![1, 1, 1] ![2, 2, 2] (by intro j; fin_cases j <;> norm_num)
  obtain ⟨g1, g2, g3⟩ := demo2_ok w ![1, 1, 4.0296 / 1.0296] ![1, 1, 2.0296 / 1.0296] ![1, 1, 1] (by intro j; fin_cases j <;> norm_num)
  exact ⟨C101_violated _ 0 _ 0 0 1 _ 50 (by norm_num) rfl h1 h2 h3, C98_violated 50 (by norm_num) _ 0 _ 0 0 1 _ rfl g1 g2 g3⟩

/-- C98: CAT02 and CMCCAT2000 with their usual parameters, with the factor 0, and CAT02 with a degree of at least 1. -/
example [FloatModel] [ExactModel] (w : World) :
    let h := demo2 w (xyzOf ![50, 40, 30]) ![1, 1, 1] ![0.9, 1, 0.8]
    (∃ y, Adapts (.cat02 (fin 1) (fin 318)) h 0 1 1 y ∧
      ∀ j, |y j - clip (degreeCat02 1 318 * published .cat02 ![1, 1, 1] ![0.9, 1, 0.8] ![50, 40, 30] j + (1 - degreeCat02 1 318) * (![50, 40, 30] : Fin 3 → ℝ) j)| ≤
        1e-5 * (degreeCat02 1 318 * size (published .cat02 ![1, 1, 1] ![0.9, 1, 0.8] ![50, 40, 30]) + (1 - degreeCat02 1 318) * size ![50, 40, 30])) ∧
    (∃ y, Adapts (.cmccat2000 (fin 1) (fin 60) (fin 40)) h 0 1 1 y ∧
      ∀ j, |y j - clip (degreeCmccat2000 1 60 40 * ((![1, 1, 1] : Fin 3 → ℝ) 1 / (![0.9, 1, 0.8] : Fin 3 → ℝ) 1) * published .cmccat2000 ![1, 1, 1] ![0.9, 1, 0.8] ![50, 40, 30] j +
        (1 - degreeCmccat2000 1 60 40) * (![50, 40, 30] : Fin 3 → ℝ) j)| ≤
        1e-5 * (degreeCmccat2000 1 60 40 * |(![1, 1, 1] : Fin 3 → ℝ) 1 / (![0.9, 1, 0.8] : Fin 3 → ℝ) 1| * size (published .cmccat2000 ![1, 1, 1] ![0.9, 1, 0.8] ![50, 40, 30]) +
          (1 - degreeCmccat2000 1 60 40) * size ![50, 40, 30])) ∧
    (∃ y, Adapts (.cat02 (fin 0) (fin 318)) h 0 1 1 y ∧ ∀ j, |y j - (![50, 40, 30] : Fin 3 → ℝ) j| ≤ 1e-5 * size ![50, 40, 30]) ∧
    (∃ y, Adapts (.cmccat2000 (fin 0) (fin 60) (fin 40)) h 0 1 1 y ∧ ∀ j, |y j - (![50, 40, 30] : Fin 3 → ℝ) j| ≤ 1e-5 * size ![50, 40, 30]) ∧
    ∃ y, Adapts (.cat02 (fin 2) (fin 318)) h 0 1 1 y ∧ Adapts (.simple .cat02) h 0 1 1 y := by
  have hr : ∀ j, 0 ≤ (![50, 40, 30] : Fin 3 → ℝ) j ∧ (![50, 40, 30] : Fin 3 → ℝ) j ≤ 100 := by intro j; fin_cases j <;> norm_num
  obtain ⟨h1, h2, h3⟩ := demo2_ok w ![50, 40, 30] ![1, 1, 1] ![0.9, 1, 0.8] hr
  have n : ∀ m j, (cone m).mulVec ![1, 1, 1] j ≠ 0 := fun m j => (cone_grey m j).ne'
  refine ⟨C98_cat02_partial 1 318 _ 0 _ 0 0 1 _ _ _ h1 h2 h3 (n _), C98_cmccat2000_partial 1 60 40 (by norm_num) _ 0 _ 0 0 1 _ _ _ h1 h2 h3 (n _) (by norm_num),
    C98_none_cat02_partial 318 _ 0 _ 0 0 1 _ _ _ h1 h2 h3 (n _) hr, C98_none_cmccat2000_partial 60 40 (by norm_num) _ 0 _ 0 0 1 _ _ _ h1 h2 h3 (n _) (by norm_num) hr,
    C98_full_cat02 2 318 ?_ _ 0 _ 0 0 1 _ _ _ h1 h2 h3 (n _)⟩
  have : Real.exp ((-318 - 42) / 92) ≤ 1 := Real.exp_le_one_iff.mpr (by norm_num)
  have : 1 / 3.6 * Real.exp ((-318 - 42) / 92) ≤ 1 / 3.6 * 1 := by gcongr
  have : (1 : ℝ) / 3.6 * 1 ≤ 1 / 2 := by norm_num
  linarith

/-- C100: black with a simplified method and with the full Bradford method. -/
example [FloatModel] [ExactModel] (w : World) (m : AdaptMatrix) :
    Adapts (.simple m) (demo2 w (xyzOf fun _ => 0) ![1, 1, 1] ![0.9, 1, 0.8]) 0 1 1 (fun _ => 0) ∧ Adapts .bradford (demo2 w (xyzOf fun _ => 0) ![1, 1, 1] ![0.9, 1, 0.8]) 0 1 1 (fun _ => 100) := by
  obtain ⟨h1, h2, h3⟩ := demo2_ok w (fun _ => 0) ![1, 1, 1] ![0.9, 1, 0.8] (by intro j; norm_num)
  exact ⟨C100_partial (.simple m) (.simple m) (fun h => h) _ 0 _ 0 0 1 _ _ h1 h2 h3 (fun j => (cone_grey m j).ne') (by norm_num), C100_violated .bradford trivial _ 0 _ 0 0 1 h1 h2⟩

/-- C102: from (1, 1, 1) to (0.9, 1, 0.8) and back with XYZ scaling. -/
example [FloatModel] [ExactModel] (w : World) : ∃ k h' k' h'' r y, Adapt.xyz_scale_adaptation 7 (some 0) (some 1) (demo2 w (xyzOf ![50, 40, 30]) ![1, 1, 1] ![0.9, 1, 0.8]) = (ok (some k), h') ∧
    Adapt.xyz_scale_adaptation 8 (some k) (some 0) h' = (ok (some k'), h'') ∧ h''.colors[k']? = some r ∧ IsXyz r y ∧ y = ![50, 40, 30] := by
  obtain ⟨h1, h2, h3⟩ := demo2_ok w ![50, 40, 30] ![1, 1, 1] ![0.9, 1, 0.8] (by intro j; fin_cases j <;> norm_num)
  have hp : ∀ s d x : Fin 3 → ℝ, published .xyz_scale s d x = fun j => x j * (d j / s j) := by
    intro s d x
    simp [published, cone]
  obtain ⟨k, h', k', h'', r, y, e1, e2, e3, e4, -, -, e5⟩ := C102_partial .xyz_scale _ 0 _ 0 0 1 7 8 _ _ _ 2 h1 h2 h3 (fun j => (cone_grey _ j).ne') (fun j => (cone_other _ j).ne')
    (by
      intro v
      rw [hp]
      have e : (![1, 1, 1] : Fin 3 → ℝ) 2 / (![0.9, 1, 0.8] : Fin 3 → ℝ) 2 = 1.25 := by
        show (1 : ℝ) / 0.8 = 1.25
        norm_num
      simp only [size, abs_mul, e]
      norm_num
      have := abs_nonneg (v 0); have := abs_nonneg (v 1); have := abs_nonneg (v 2)
      linarith)
    (by intro j; fin_cases j <;> norm_num) (by rw [hp]; intro j; fin_cases j <;> norm_num) (by norm_num)
  refine ⟨k, h', k', h'', r, y, e1, e2, e3, e4, ?_⟩
  funext j
  have := e5 j
  simp only [tol, zero_mul] at this
  linarith [abs_nonpos_iff.mp this]
