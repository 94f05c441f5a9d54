import Verif.Props.Adaptations2
import Verif.AdaptNear
import Verif.Binary32

/-!
# Property C168: simplified chromatic adaptation in single precision

The simplified methods multiply three rounded matrices and the tristimulus values in single precision.  The result is the published one up to the error of the stored inverse matrix, as in
exact arithmetic, and 1/40000 of the largest adapted value.  The specification is that of C97.
-/

open Outcome Fl Prog ObjectSpec ConvSpec CombineSpec AdaptSpec Matrix

/-- What the white points have to satisfy: tristimulus values of ordinary size, cone responses of the source without heavy cancellation, and responses of the target at most `g` times those of
the source. -/
structure AdaptSpec.Moderate (m : AdaptMatrix) (s d : Fin 3 → ℝ) (g : ℝ) : Prop where
  source : ∀ j, 0.01 ≤ s j ∧ s j ≤ 3
  target : ∀ j, 0.01 ≤ d j ∧ d j ≤ 3
  response : ∀ j, 0.02 ≤ (cone m).mulVec s j
  cancel : ∀ j, ∑ l, |cone m j l| * s l ≤ 4 * (cone m).mulVec s j
  ratio : ∀ j, ∑ l, |cone m j l| * d l ≤ g * (cone m).mulVec s j
  least : 1 ≤ g
  most : g ≤ 100

section
variable [FloatModel] [FineError]

theorem AdaptSpec.simple_single {m : AdaptMatrix} {h : Heap} {i : Nat} {c : Color} {sp u t : Nat} {x s d : Fin 3 → ℝ} {g X : ℝ} (hs : Setting h i .xyz c sp u t) (hx : IsXyz c x)
    (hw : Whites h u t s d) (hm : Moderate m s d g) (hX0 : 0.01 ≤ X) (hX : g * X ≤ 200) (hxX : ∀ j, |x j| ≤ X) :
    ∃ v : Fin 3 → ℝ, Adapts (.simple m) h i t c.alpha (fun j => clip (v j)) ∧ ∀ j, |v j - (Adapt.ideal m s d).mulVec x j| ≤ g * X / 40000 := by
  obtain ⟨h1, h2, h3, h4, h5, h6, h7⟩ := hm
  rw [cone_eq] at h3 h4 h5
  choose v hv he using fun a => Adapt.simplified_near m s d x h6 h7 (hX0.trans' (by norm_num)) hX h1 h2 hxX h3 h4 h5 a
  refine ⟨v, core_run hs hx hw ?_, he⟩
  have e := Adapt.simplified_steps m (fun j => fin (s j)) (fun j => fin (d j)) (fun j => fin (x j)) [fin (x 0), fin (x 1), fin (x 2)]
  rw [hv 0, hv 1, hv 2] at e
  exact e

/-- C168: the simplified methods compute the published transform. -/
theorem C168_simplified (m : AdaptMatrix) (h : Heap) (i : Nat) (c : Color) (sp u t : Nat) (x s d : Fin 3 → ℝ) (g X : ℝ) (hs : Setting h i .xyz c sp u t) (hx : IsXyz c x)
    (hw : Whites h u t s d) (hm : Moderate m s d g) (hX0 : 0.01 ≤ X) (hX : g * X ≤ 200) (hxX : ∀ j, |x j| ≤ X) :
    ∃ y, Adapts (.simple m) h i t c.alpha y ∧ ∀ j, |y j - clip (published m s d x j)| ≤ tol m * size (published m s d x) + g * X / 40000 := by
  obtain ⟨v, hv, he⟩ := simple_single hs hx hw hm hX0 hX hxX
  refine ⟨_, hv, fun j => (clip_close _ _).trans ?_⟩
  have h1 := he j
  have h2 := published_close m s d x j
  have h3 := abs_sub_le (v j) ((Adapt.ideal m s d).mulVec x j) (published m s d x j)
  linarith

/-- C168: the source white, and every grey on its axis, becomes the target white or the grey of the same lightness. -/
theorem C168_white (m : AdaptMatrix) (h : Heap) (i : Nat) (c : Color) (sp u t : Nat) (s d : Fin 3 → ℝ) (k g X : ℝ) (hs : Setting h i .xyz c sp u t) (hx : IsXyz c fun j => k * s j)
    (hw : Whites h u t s d) (hm : Moderate m s d g) (hX0 : 0.01 ≤ X) (hX : g * X ≤ 200) (hxX : ∀ j, |k * s j| ≤ X) (hd : ∀ j, 0 ≤ k * d j ∧ k * d j ≤ 100) :
    ∃ y, Adapts (.simple m) h i t c.alpha y ∧ ∀ j, |y j - k * d j| ≤ (tol m * size fun j => k * d j) + g * X / 40000 := by
  obtain ⟨y, hy, he⟩ := C168_simplified m h i c sp u t _ s d g X hs hx hw hm hX0 hX hxX
  refine ⟨y, hy, fun j => ?_⟩
  have := he j
  rw [published_white m s d k fun j => ne_of_gt (lt_of_lt_of_le (by norm_num) (hm.response j))] at this
  dsimp only at this
  rwa [clip_id (hd j).1 (hd j).2] at this

/-- C168: adapting to the same white point hardly changes the colour. -/
theorem C168_same (m : AdaptMatrix) (h : Heap) (i : Nat) (c : Color) (sp u t : Nat) (x s : Fin 3 → ℝ) (X : ℝ) (hs : Setting h i .xyz c sp u t) (hx : IsXyz c x)
    (hw : Whites h u t s s) (hm : Moderate m s s 4) (hX0 : 0.01 ≤ X) (hX : X ≤ 50) (hxX : ∀ j, |x j| ≤ X) (hx0 : ∀ j, 0 ≤ x j) :
    ∃ y, Adapts (.simple m) h i t c.alpha y ∧ ∀ j, |y j - x j| ≤ tol m * size x + X / 10000 := by
  obtain ⟨y, hy, he⟩ := C168_simplified m h i c sp u t x s s 4 X hs hx hw hm hX0 (by linarith) hxX
  refine ⟨y, hy, fun j => ?_⟩
  have := he j
  rw [published_same m s x fun j => ne_of_gt (lt_of_lt_of_le (by norm_num) (hm.response j)), clip_id (hx0 j) (by linarith [(abs_le.mp (hxX j)).2])] at this
  refine this.trans (le_of_eq ?_)
  ring

end

/-- D65 to D50 with every matrix. -/
theorem AdaptSpec.moderate_daylight (m : AdaptMatrix) : Moderate m ![0.95047, 1, 1.08883] ![0.96422, 1, 0.82521] 4 := by
  constructor
  · intro j; fin_cases j <;> norm_num
  · intro j; fin_cases j <;> norm_num
  · rw [cone_eq]
    intro j
    cases m <;> fin_cases j <;> simp [Adapt.square, AdaptMatrix.values, Matrix.mulVec, dotProduct, Fin.sum_univ_three] <;> norm_num [abs_of_pos, abs_of_neg]
  · rw [cone_eq]
    intro j
    cases m <;> fin_cases j <;> simp [Adapt.square, AdaptMatrix.values, Matrix.mulVec, dotProduct, Fin.sum_univ_three] <;> norm_num [abs_of_pos, abs_of_neg]
  · rw [cone_eq]
    intro j
    cases m <;> fin_cases j <;> simp [Adapt.square, AdaptMatrix.values, Matrix.mulVec, dotProduct, Fin.sum_univ_three] <;> norm_num [abs_of_pos, abs_of_neg]
  · norm_num
  · norm_num

/-- A colour and the white of D65 adapted to D50 in binary32. -/
example (m : AdaptMatrix) (w : World) : letI := Binary32.binary32
    (∃ y, Adapts (.simple m) (demo2 w (xyzOf ![0.5, 0.4, 0.3]) ![0.95047, 1, 1.08883] ![0.96422, 1, 0.82521]) 0 1 1 y ∧
      ∀ j, |y j - clip (published m ![0.95047, 1, 1.08883] ![0.96422, 1, 0.82521] ![0.5, 0.4, 0.3] j)| ≤
        tol m * size (published m ![0.95047, 1, 1.08883] ![0.96422, 1, 0.82521] ![0.5, 0.4, 0.3]) + 4 * 0.5 / 40000) ∧
    ∃ y, Adapts (.simple m) (demo2 w (xyzOf fun j => 1 * (![0.95047, 1, 1.08883] : Fin 3 → ℝ) j) ![0.95047, 1, 1.08883] ![0.96422, 1, 0.82521]) 0 1 1 y ∧
      ∀ j, |y j - 1 * (![0.96422, 1, 0.82521] : Fin 3 → ℝ) j| ≤ (tol m * size fun j => 1 * (![0.96422, 1, 0.82521] : Fin 3 → ℝ) j) + 4 * 1.1 / 40000 := by
  letI := Binary32.binary32
  haveI := Binary32.binary32_fine
  obtain ⟨h1, h2, h3⟩ := demo2_ok w ![0.5, 0.4, 0.3] ![0.95047, 1, 1.08883] ![0.96422, 1, 0.82521] (by intro j; fin_cases j <;> norm_num)
  obtain ⟨g1, g2, g3⟩ := demo2_ok w (fun j => 1 * (![0.95047, 1, 1.08883] : Fin 3 → ℝ) j) ![0.95047, 1, 1.08883] ![0.96422, 1, 0.82521] (by intro j; fin_cases j <;> norm_num)
  exact ⟨C168_simplified m _ _ _ _ _ _ _ _ _ 4 0.5 h1 h2 h3 (moderate_daylight m) (by norm_num) (by norm_num) (by intro j; fin_cases j <;> norm_num [abs_of_pos]),
    C168_white m _ _ _ _ _ _ _ _ 1 4 1.1 g1 g2 g3 (moderate_daylight m) (by norm_num) (by norm_num) (by intro j; fin_cases j <;> norm_num [abs_of_pos]) (by intro j; fin_cases j <;> norm_num)⟩
