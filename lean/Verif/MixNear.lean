import Verif.Cie94Near
import Verif.Props.Gradients
import Verif.Props.LongAverages
import Verif.Props.SingleModes

/-!
# Mixtures in an arithmetic that rounds

Helper lemmas for C167: the weighted sums and the weighted roots of squares of two numbers, and the limits the constructors apply.
-/

open Outcome Fl Prog ObjectSpec ConvSpec BlendSpec CalcSpec Calc

namespace Calc
section
variable [FloatModel]

/-- What the constructors of the eight classes store for finite arguments. -/
theorem construct_limit {t : ColorType} (ht : Flat t) (g : Nat → ℝ) (al : Fl) (sp : Option Nat) :
    Color.construct t ((List.range (Color.count t)).map (fun i => fin (g i))) al sp =
      ok ⟨t, t, (List.range (Color.count t)).map (fun i => fin (max (min (g i) (setterRange t i).2) (setterRange t i).1)), if Color.scalesAlpha t then Color.clamp (al / 255) 1 0 else al,
        Color.maxOf t, Color.minOf t, sp⟩ := by
  have r1 : List.range 1 = [0] := rfl
  have r3 : List.range 3 = [0, 1, 2] := rfl
  have r4 : List.range 4 = [0, 1, 2, 3] := rfl
  rcases ht with rfl | rfl | rfl | rfl | rfl | rfl | rfl | rfl <;>
  · simp only [Color.count, r1, r3, r4, List.map_cons, List.map_nil, Color.construct_rgbTrue, Color.construct_rgbDeep, Color.construct_greyTrue, Color.construct_greyDeep, Color.construct_cmyk,
      Color.construct_xyz, Color.construct_xyy, Color.construct_cieluv, Color.mkRgbTrue, Color.mkRgbDeep, Color.mkGreyTrue, Color.mkGreyDeep, Color.mkCmyk, Color.mkXyz, Color.mkCieluv,
      zero_def, one_def, lit_def, Fl.neg_fin, Color.clamp_fin, setterRange, channelRange, Color.maxOf, Color.minOf, Color.scalesAlpha]
    simp

/-- Limiting does not move away from a number inside the limits. -/
theorem limit_near {y r lo hi : ℝ} (h0 : lo ≤ r) (h1 : r ≤ hi) : |max (min y hi) lo - r| ≤ |y - r| := by
  have h := abs_max_sub_max_le_abs (min y hi) (min r hi) lo
  rw [min_eq_left h1, max_eq_left h0] at h
  refine h.trans ?_
  have h' := abs_min_sub_min_le_max y hi r hi
  rw [min_eq_left h1, sub_self, abs_zero, max_eq_left (abs_nonneg _)] at h'
  exact h'

theorem byte_fin (y : ℝ) : byteLimit (fin y) = fin (min (max y 0) 255) := by
  simp only [byteLimit, zero_def, lit_def, fmax_fin, fmin_fin]

theorem byte_near {y r : ℝ} (h0 : 0 ≤ r) (h1 : r ≤ 255) : |min (max y 0) 255 - r| ≤ |y - r| := by
  have h := abs_min_sub_min_le_max (max y 0) 255 r 255
  rw [sub_self, abs_zero, min_eq_left h1] at h
  refine (h.trans (le_of_eq (max_eq_left (abs_nonneg _)))).trans ?_
  have h' := abs_max_sub_max_le_abs y r 0
  rwa [max_eq_left h0] at h'

end

section
variable [FloatModel] [FineError]

/-- The second weight. -/
theorem rest_near {w : ℝ} (h0 : 0 ≤ w) (h1 : w ≤ 1) : ∃ v, (1 : Fl) - fin w = fin v ∧ 0 ≤ v ∧ |v - (1 - w)| ≤ (1 - w) / 2 ^ 23 + 1 / 2 ^ 100 := by
  obtain ⟨v, e, n⟩ := FineError.rnd_near (1 - w) (by rw [abs_le]; constructor <;> norm_num <;> linarith)
  refine ⟨v, by rw [one_def, fin_sub, e], rnd_nonneg_fin (by linarith) e, ?_⟩
  rwa [abs_of_nonneg (by linarith : 0 ≤ 1 - w)] at n

/-- The root of the weighted sum of two squares. -/
theorem quad_near {X Y : Fl} {w x y : ℝ} (h0 : 0 ≤ w) (h1 : w ≤ 1) (hx : |x| ≤ 255) (hy : |y| ≤ 255) (hX : RelErr (powf X 2) (x ^ 2) 4.2 (1 / 2 ^ 76)) (hY : RelErr (powf Y 2) (y ^ 2) 4.2 (1 / 2 ^ 76)) :
    RelErr (quadratic (fin w) (1 - fin w) X Y) (Real.sqrt (w * x ^ 2 + (1 - w) * y ^ 2)) 8 (1 / 2 ^ 30) := by
  have sq : ∀ x : ℝ, |x| ≤ 255 → x ^ 2 ≤ 65025 := fun x h => by
    rw [← sq_abs]
    calc |x| ^ 2 ≤ 255 ^ 2 := by gcongr
      _ = 65025 := by norm_num
  have x2 := sq x hx
  have y2 := sq y hy
  have x0 := sq_nonneg x
  have y0 := sq_nonneg y
  obtain ⟨v, ev, v0, nv⟩ := rest_near h0 h1
  obtain ⟨p, ep, p0, np⟩ := hX
  obtain ⟨q, eq, q0, nq⟩ := hY
  have w0' : 0 ≤ 1 - w := by linarith
  have A0 : 0 ≤ w * x ^ 2 := by positivity
  have B0 : 0 ≤ (1 - w) * y ^ 2 := by positivity
  have A1 : w * x ^ 2 ≤ 65025 := by nlinarith
  have B1 : (1 - w) * y ^ 2 ≤ 65025 := by nlinarith
  have first : RelErr (fin w * fin p) (w * x ^ 2) 6.5 (1 / 2 ^ 73) := by
    rw [fin_mul]
    refine (RelErr.round (p := w * p) (A := w * x ^ 2) (k := 4.2) (τ := 1 / 2 ^ 76) (by positivity) ?_ A0 (A1.trans (by norm_num)) (by norm_num) (by norm_num) (by positivity) (by norm_num)).weaken A0
      (by norm_num) (by norm_num)
    rw [← mul_sub, abs_mul, abs_of_nonneg h0]
    refine (mul_le_mul_of_nonneg_left np h0).trans ?_
    have : w * (1 / 2 ^ 76) ≤ 1 / 2 ^ 76 := by nlinarith
    have e : w * (x ^ 2 * 4.2 / 2 ^ 23 + 1 / 2 ^ 76) = w * x ^ 2 * 4.2 / 2 ^ 23 + w * (1 / 2 ^ 76) := by ring
    rw [e]; linarith
  have second : RelErr (fin v * fin q) ((1 - w) * y ^ 2) 6.5 (1 / 2 ^ 73) := by
    rw [fin_mul]
    refine (RelErr.round (p := v * q) (A := (1 - w) * y ^ 2) (k := 5.3) (τ := 1 / 2 ^ 75) (by positivity) ?_ B0 (B1.trans (by norm_num)) (by norm_num) (by norm_num) (by positivity) (by norm_num)).weaken B0
      (by norm_num) (by norm_num)
    rw [show v * q - (1 - w) * y ^ 2 = (v - (1 - w)) * q + (1 - w) * (q - y ^ 2) by ring]
    refine (abs_add_le _ _).trans ?_
    rw [abs_mul, abs_mul, abs_of_nonneg q0, abs_of_nonneg w0']
    have hq : q ≤ y ^ 2 * (1 + 4.2 / 2 ^ 23) + 1 / 2 ^ 76 := by
      have := (abs_le.mp nq).2
      linarith
    have t1 : |v - (1 - w)| * q ≤ ((1 - w) / 2 ^ 23 + 1 / 2 ^ 100) * (y ^ 2 * (1 + 4.2 / 2 ^ 23) + 1 / 2 ^ 76) := mul_le_mul nv hq q0 (by positivity)
    have t2 : (1 - w) * |q - y ^ 2| ≤ (1 - w) * (y ^ 2 * 4.2 / 2 ^ 23 + 1 / 2 ^ 76) := by gcongr
    have e1 : ((1 - w) / 2 ^ 23 + 1 / 2 ^ 100) * (y ^ 2 * (1 + 4.2 / 2 ^ 23) + 1 / 2 ^ 76) =
        (1 - w) * y ^ 2 * ((1 + 4.2 / 2 ^ 23) / 2 ^ 23) + (1 - w) * (1 / 2 ^ 99) + y ^ 2 * ((1 + 4.2 / 2 ^ 23) / 2 ^ 100) + 1 / 2 ^ 176 := by ring
    have e2 : (1 - w) * (y ^ 2 * 4.2 / 2 ^ 23 + 1 / 2 ^ 76) = (1 - w) * y ^ 2 * 4.2 / 2 ^ 23 + (1 - w) * (1 / 2 ^ 76) := by ring
    rw [e1] at t1
    rw [e2] at t2
    generalize (1 - w) * y ^ 2 = B at *
    clear A1 A0 first ev eq ep np nq
    norm_num at t1 t2 y2 B0 ⊢
    linarith
  have sum := first.add second A0 B0 (by linarith [show (65025 + 65025 : ℝ) ≤ 2 ^ 40 by norm_num]) (by norm_num) (by norm_num) (by positivity) (by positivity) (by norm_num)
  rw [quadratic, ev, ep, eq]
  exact sum.sqrt (by positivity) (by linarith [show (65025 + 65025 : ℝ) ≤ 2 ^ 40 by norm_num]) (by norm_num) (by norm_num) (by positivity) (by norm_num)

/-- The weighted sum of two numbers. -/
theorem lin_near {X Y : Fl} {w x y M : ℝ} (h0 : 0 ≤ w) (h1 : w ≤ 1) (hM0 : 0 ≤ M) (hM : M ≤ 255) (hx : |x| ≤ M) (hy : |y| ≤ M) (hX : Near X x (M / 2 ^ 23 + 1 / 2 ^ 100)) (hY : Near Y y (M / 2 ^ 23 + 1 / 2 ^ 100)) :
    Near (linear (fin w) (1 - fin w) X Y) (w * x + (1 - w) * y) (M * (4.2 / 2 ^ 23) + 1 / 2 ^ 80) := by
  obtain ⟨v, ev, v0, nv⟩ := rest_near h0 h1
  obtain ⟨p, rfl, np⟩ := hX
  obtain ⟨q, rfl, nq⟩ := hY
  have w0' : 0 ≤ 1 - w := by linarith
  set δ := M / 2 ^ 23 + 1 / 2 ^ 100 with hδ
  have δ0 : 0 ≤ δ := by positivity
  have hp : |p| ≤ M + δ := by have := abs_add_le (p - x) x; rw [sub_add_cancel] at this; linarith
  have hq : |q| ≤ M + δ := by have := abs_add_le (q - y) y; rw [sub_add_cancel] at this; linarith
  -- the products
  have hwp : |w * p| ≤ w * (M + δ) := by rw [abs_mul, abs_of_nonneg h0]; gcongr
  have hv1 : v ≤ (1 - w) + ((1 - w) / 2 ^ 23 + 1 / 2 ^ 100) := by have := (abs_le.mp nv).2; linarith
  have hvq : |v * q| ≤ ((1 - w) + ((1 - w) / 2 ^ 23 + 1 / 2 ^ 100)) * (M + δ) := by rw [abs_mul, abs_of_nonneg v0]; gcongr
  have hMδ : M + δ ≤ 256 := by rw [hδ]; norm_num; linarith
  have hwp' : |w * p| ≤ 2 ^ 90 := hwp.trans (by norm_num; nlinarith)
  have hvq' : |v * q| ≤ 2 ^ 90 := hvq.trans (by norm_num; nlinarith)
  obtain ⟨s, es, ns⟩ := FineError.rnd_near (w * p) (hwp'.trans (by norm_num))
  obtain ⟨t, et, nt⟩ := FineError.rnd_near (v * q) (hvq'.trans (by norm_num))
  have ds : |s - w * x| ≤ w * δ + w * (M + δ) / 2 ^ 23 + 1 / 2 ^ 100 := by
    have h := abs_sub_le s (w * p) (w * x)
    rw [← mul_sub, abs_mul, abs_of_nonneg h0] at h
    have h2 : w * |p - x| ≤ w * δ := by gcongr
    have h3 : |w * p| / 2 ^ 23 ≤ w * (M + δ) / 2 ^ 23 := by gcongr
    linarith
  have dt : |t - (1 - w) * y| ≤ ((1 - w) / 2 ^ 23 + 1 / 2 ^ 100) * (M + δ) + (1 - w) * δ + ((1 - w) + ((1 - w) / 2 ^ 23 + 1 / 2 ^ 100)) * (M + δ) / 2 ^ 23 + 1 / 2 ^ 100 := by
    have h := abs_sub_le t (v * q) ((1 - w) * y)
    have h4 : |v * q - (1 - w) * y| ≤ ((1 - w) / 2 ^ 23 + 1 / 2 ^ 100) * (M + δ) + (1 - w) * δ := by
      rw [show v * q - (1 - w) * y = (v - (1 - w)) * q + (1 - w) * (q - y) by ring]
      refine (abs_add_le _ _).trans ?_
      rw [abs_mul, abs_mul, abs_of_nonneg w0']
      gcongr
    have h3 : |v * q| / 2 ^ 23 ≤ ((1 - w) + ((1 - w) / 2 ^ 23 + 1 / 2 ^ 100)) * (M + δ) / 2 ^ 23 := by gcongr
    linarith
  have tot : |s + t - (w * x + (1 - w) * y)| ≤ M * (3.1 / 2 ^ 23) + 1 / 2 ^ 85 := by
    rw [show s + t - (w * x + (1 - w) * y) = (s - w * x) + (t - (1 - w) * y) by ring]
    refine (abs_add_le _ _).trans ((add_le_add ds dt).trans ?_)
    have hw1 : w * M ≤ M := by nlinarith
    have hw0 : 0 ≤ w * M := by positivity
    rw [hδ]
    clear_value δ
    ring_nf
    norm_num
    linarith
  have hr : |w * x + (1 - w) * y| ≤ M := by
    refine (abs_add_le _ _).trans ?_
    rw [abs_mul, abs_mul, abs_of_nonneg h0, abs_of_nonneg w0']
    nlinarith
  have hst : |s + t| ≤ M + (M * (3.1 / 2 ^ 23) + 1 / 2 ^ 85) := by
    have := abs_add_le (s + t - (w * x + (1 - w) * y)) (w * x + (1 - w) * y); rw [sub_add_cancel] at this; linarith
  obtain ⟨r, er, nr⟩ := FineError.rnd_near (s + t) (hst.trans (by norm_num; linarith))
  refine ⟨r, by rw [linear, ev, fin_mul, fin_mul, es, et, fin_add, er], ?_⟩
  have h := abs_sub_le r (s + t) (w * x + (1 - w) * y)
  have h3 : |s + t| / 2 ^ 23 ≤ (M + (M * (3.1 / 2 ^ 23) + 1 / 2 ^ 85)) / 2 ^ 23 := by gcongr
  clear_value δ
  clear hδ ds dt hvq hwp nv nt ns
  norm_num at tot h3 nr ⊢
  linarith

variable [SquareNear]

/-- The combination the class uses. -/
noncomputable def combF (t : ColorType) : Fl → Fl → Fl → Fl → Fl := if t = .rgbTrue ∨ t = .rgbDeep then quadratic else linear

/-- The combination of two numbers. -/
theorem comb_near (t : ColorType) {w x y M : ℝ} (h0 : 0 ≤ w) (h1 : w ≤ 1) (hM0 : 1 ≤ M) (hM : M ≤ 255) (hx : |x| ≤ M) (hy : |y| ≤ M) :
    Near (combF t (fin w) (1 - fin w) (fin x) (fin y)) (combR t w x y) (M / 10 ^ 6) := by
  unfold combF combR
  split
  · have two : (2 : Fl) = fin 2 := by simp
    have sq : ∀ x : ℝ, |x| ≤ M → RelErr (powf (fin x) 2) (x ^ 2) 4.2 (1 / 2 ^ 76) := fun x h => by
      obtain ⟨r, e, r0, n⟩ := SquareNear.square_near x (h.trans (by linarith [show (255 : ℝ) ≤ 2 ^ 20 by norm_num]))
      refine ⟨r, by rw [two, e], r0, n.trans ?_⟩
      have := sq_nonneg x
      norm_num
      linarith
    obtain ⟨r, e, r0, n⟩ := quad_near h0 h1 (hx.trans hM) (hy.trans hM) (sq x hx) (sq y hy)
    refine ⟨r, e, n.trans ?_⟩
    have := (combR_between .rgbTrue (x := |x|) (y := |y|) h0 h1 (fun _ => ⟨abs_nonneg _, abs_nonneg _⟩)).2.trans (max_le hx hy)
    simp only [combR, true_or, if_true, sq_abs] at this
    norm_num
    linarith
  · have w0 : 0 ≤ M / 2 ^ 23 + 1 / 2 ^ 100 := by positivity
    refine (lin_near h0 h1 (by linarith) hM hx hy ((near_fin x).weaken w0) ((near_fin y).weaken w0)).weaken ?_
    norm_num
    linarith

/-- The combination of two numbers that were rounded once. -/
theorem comb_rnd (t : ColorType) {w x y : ℝ} (h0 : 0 ≤ w) (h1 : w ≤ 1) (hx : |x| ≤ 255) (hy : |y| ≤ 255) :
    Near (combF t (fin w) (1 - fin w) (rnd x) (rnd y)) (combR t w x y) (255 / 10 ^ 6) := by
  unfold combF combR
  split
  · have sq : ∀ x : ℝ, |x| ≤ 255 → RelErr (powf (rnd x) 2) (x ^ 2) 4.2 (1 / 2 ^ 76) := fun x h => by
      obtain ⟨r, e, r0, n⟩ := powf_rnd (r := x) (h.trans (by norm_num))
      exact ⟨r, e, r0, n.trans (le_of_eq (by ring))⟩
    obtain ⟨r, e, r0, n⟩ := quad_near h0 h1 hx hy (sq x hx) (sq y hy)
    refine ⟨r, e, n.trans ?_⟩
    have := (combR_between .rgbTrue (x := |x|) (y := |y|) h0 h1 (fun _ => ⟨abs_nonneg _, abs_nonneg _⟩)).2.trans (max_le hx hy)
    simp only [combR, true_or, if_true, sq_abs] at this
    norm_num
    linarith
  · have near : ∀ x : ℝ, |x| ≤ 255 → Near (rnd x) x (255 / 2 ^ 23 + 1 / 2 ^ 100) := fun x h => by
      obtain ⟨r, e, n⟩ := FineError.rnd_near x (h.trans (by norm_num))
      exact ⟨r, e, n.trans (by gcongr)⟩
    refine (lin_near h0 h1 (by norm_num) le_rfl hx hy (near x hx) (near y hy)).weaken ?_
    norm_num

/-- The alpha value of the true-colour classes. -/
theorem scaled_near {Z : Fl} {r : ℝ} (hr0 : 0 ≤ r) (hr1 : r ≤ 1) (hZ : Near Z (r * 255) (255 / 10 ^ 6)) : Near (Color.clamp (byteLimit Z / 255) 1 0) r (2 / 10 ^ 6) := by
  obtain ⟨z, rfl, nz⟩ := hZ
  rw [byte_fin]
  have hb := (byte_near (y := z) (r := r * 255) (by linarith) (by linarith)).trans nz
  have hb0 : 0 ≤ min (max z 0) 255 := le_min (le_max_right _ _) (by norm_num)
  have hb1 : min (max z 0) 255 ≤ 255 := min_le_right _ _
  generalize min (max z 0) 255 = b at *
  refine Near.clamp01 ?_ hr0 hr1
  obtain ⟨y, e, n⟩ := FineError.rnd_near (b / 255) (by rw [abs_of_nonneg (by positivity)]; norm_num; linarith)
  refine ⟨y, by rw [lit_def, fin_div _ _ (by norm_num), e], ?_⟩
  have hb255 : 0 ≤ b / 255 := by positivity
  rw [abs_of_nonneg hb255] at n
  rw [abs_le] at n hb ⊢
  clear nz e
  norm_num at *
  constructor <;> linarith

omit [FineError] [SquareNear] in
/-- The sum of two colours of one of the eight classes, when the combinations of the components are numbers. -/
theorem addVal_flat {t : ColorType} (ht : Flat t) {a b : Color} (ha : Proper t a) (hb : Proper t b) (w1 w2 : Fl) (ia : Bool) (g : Nat → ℝ)
    (hg : ∀ i < Color.count t, combF t w1 w2 (fin (chan a i)) (fin (chan b i)) = fin (g i)) :
    addVal t w1 w2 ia a b = ok ⟨t, t, (List.range (Color.count t)).map (fun i => fin (max (min (g i) (setterRange t i).2) (setterRange t i).1)),
      if Color.scalesAlpha t then Color.clamp (byteLimit (alphaOf (combF t w1 w2) ia a b) / 255) 1 0 else alphaOf (combF t w1 w2) ia a b, Color.maxOf t, Color.minOf t, a.space⟩ := by
  have hz := zip_all (combF t w1 w2) ha.col hb.col
  rw [ha.comps, hb.comps, zipWith_range] at hz
  have e : (List.range (Color.count t)).map (fun i => combF t w1 w2 (fin (chan a i)) (fin (chan b i))) = (List.range (Color.count t)).map (fun i => fin (g i)) :=
    List.map_congr_left fun i hi => hg i (by simpa using hi)
  rw [e] at hz
  have hbyte : ∀ v : ℝ, max (min (min (max v 0) 255) 255) 0 = max (min v 255) 0 := fun v => by
    rcases le_total v 0 with h | h
    · rw [max_eq_right h]; norm_num; exact h.trans (by norm_num)
    · rw [max_eq_left h, min_assoc, min_self]
  have hc := construct_limit ht g (alphaOf (combF t w1 w2) ia a b) a.space
  have hc' := construct_limit ht (fun i => min (max (g i) 0) 255) (byteLimit (alphaOf (combF t w1 w2) ia a b)) a.space
  rcases ht with rfl | rfl | rfl | rfl | rfl | rfl | rfl | rfl
  case inl =>
    simp only [Color.count, combF, true_or, if_true] at hz hc' ⊢
    simp only [addVal, hz, ok_bind, List.map_map, Function.comp_def, byte_fin, hc']
    simp only [Color.scalesAlpha, if_true, setterRange, channelRange, hbyte]
  case inr.inr.inl =>
    simp only [Color.count, combF, reduceCtorEq, or_self, if_false] at hz hc' ⊢
    simp only [addVal, hz, ok_bind, List.map_map, Function.comp_def, byte_fin, hc']
    simp only [Color.scalesAlpha, if_true, setterRange, channelRange, hbyte]
  all_goals
    simp only [Color.count, combF, true_or, or_true, reduceCtorEq, or_self, if_false, if_true] at hz hc ⊢
    simp only [addVal, hz, ok_bind, hc]
    simp only [Color.scalesAlpha, Bool.false_eq_true, if_false]

omit [FineError] [SquareNear] in
/-- Mixing calls the sum with the weights `w` and `1 - w`. -/
theorem mixOf_flat {t : ColorType} (ht : Flat t) {W : Fl} (h1 : Pass W) (h2 : Pass (1 - W)) {ia : Bool} {wl : World} {a b r : Color} (e : addVal t W (1 - W) ia a b = ok r) :
    Yields (mixOf t W ia) wl a b r := by
  have hm : middle t = t := by rcases ht with rfl | rfl | rfl | rfl | rfl | rfl | rfl | rfl <;> rfl
  have ho : addOf t W (1 - W) ia = addOwn t W (1 - W) ia := by cases t <;> first | rfl | simp [middle] at hm
  rw [mixOf_pass h1, ho]
  exact addOwn_yields h1 h2 e

end
end Calc

namespace Binary32

/-- Rounded numbers have the form of binary32 numbers. -/
theorem value_form (r : ℝ) : ∃ m e : ℤ, value r = m * 2 ^ e ∧ |m| ≤ 2 ^ 24 ∧ -149 ≤ e := by
  refine ⟨rne (r / 2 ^ ulpExp r), ulpExp r, rfl, ?_, by unfold ulpExp; omega⟩
  by_cases h0 : r = 0
  · subst h0
    rw [zero_div, show rne 0 = 0 by exact_mod_cast rne_int 0]; norm_num
  have l := lt_ulp r h0
  have p := two_pos (ulpExp r)
  have q : |r / 2 ^ ulpExp r| ≤ 2 ^ 24 := by
    rw [abs_div, abs_of_pos p, div_le_iff₀ p]
    rw [zpow_add₀ (by norm_num)] at l; norm_num at l ⊢; linarith
  rw [abs_le] at q ⊢
  have a := rne_mono q.1
  have b := rne_mono q.2
  rw [show (-2 ^ 24 : ℝ) = ((-2 ^ 24 : ℤ) : ℝ) by norm_num, rne_int] at a
  rw [show (2 ^ 24 : ℝ) = ((2 ^ 24 : ℤ) : ℝ) by norm_num, rne_int] at b
  exact ⟨a, b⟩

/-- Rounding a second time changes nothing. -/
theorem round_again {r y : ℝ} (h : round32 r = .fin y) : round32 y = .fin y := by
  have hv : y = value r ∧ |value r| < 2 ^ 128 := by
    unfold round32 at h
    split_ifs at h with h1 h2
    exact ⟨by simpa using h.symm, abs_lt.mpr ⟨not_le.mp h2, not_le.mp h1⟩⟩
  obtain ⟨m, e, hm, h1, h2⟩ := value_form r
  rw [hv.1]
  have hb := hv.2
  rw [hm] at hb ⊢
  exact round_exact m e h1 h2 hb

/-- The root of the square of a number that is not very small or large is the number: both roundings together do not change it. -/
theorem root_square {x : ℝ} (hx : round32 x = .fin x) (h0 : 1 / 2 ^ 60 ≤ x) (h1 : x ≤ 2 ^ 60) : ∃ v, round32 (x ^ 2) = .fin v ∧ 0 ≤ v ∧ round32 (Real.sqrt v) = .fin x := by
  have x0 : 0 < x := lt_of_lt_of_le (by positivity) h0
  obtain ⟨m, e, hm, -, he, hu⟩ := float_form hx
  have l1 := lt_ulp x x0.ne'
  rw [← hu, abs_of_pos x0] at l1
  have he1 : -84 < e := by
    have : (2 : ℝ) ^ (-60 : ℤ) < 2 ^ (e + 24) := lt_of_le_of_lt (by norm_num at h0 ⊢; exact h0) l1
    have := (zpow_lt_zpow_iff_right₀ (by norm_num : (1 : ℝ) < 2)).mp this
    omega
  have l2 := ulp_le x0.ne' (by omega)
  rw [← hu, abs_of_pos x0] at l2
  have he2 : e ≤ 37 := by
    have : (2 : ℝ) ^ (e + 23) ≤ 2 ^ (60 : ℤ) := l2.trans (by exact_mod_cast h1)
    have := (zpow_le_zpow_iff_right₀ (by norm_num : (1 : ℝ) < 2)).mp this
    omega
  have p := two_pos e
  have M1 : (2 : ℝ) ^ 23 ≤ m := by
    rw [hm, zpow_add₀ (by norm_num), mul_comm] at l2
    exact_mod_cast le_of_mul_le_mul_right l2 p
  have M2 : (m : ℝ) < 2 ^ 24 := by
    rw [hm, zpow_add₀ (by norm_num), mul_comm ((2 : ℝ) ^ e)] at l1
    exact_mod_cast lt_of_mul_lt_mul_right l1 p.le
  have p2 : (0 : ℝ) < 2 ^ (2 * e) := two_pos _
  have ee : (2 : ℝ) ^ (2 * e) = (2 ^ e) ^ 2 := by rw [two_mul, zpow_add₀ (by norm_num), sq]
  have x2 : x ^ 2 = m ^ 2 * 2 ^ (2 * e) := by rw [hm, ee]; ring
  -- the error of the square
  have near : |value (x ^ 2) / 2 ^ (2 * e) - (m : ℝ) ^ 2| < (m : ℝ) - 1 / 4 := by
    have key : ∀ k : ℤ, ulpExp (x ^ 2) = 2 * e + k → (2 : ℝ) ^ k / 2 < m - 1 / 4 → |value (x ^ 2) / 2 ^ (2 * e) - (m : ℝ) ^ 2| < (m : ℝ) - 1 / 4 := fun k hk hl => by
      have n := value_near (x ^ 2)
      rw [hk, zpow_add₀ (by norm_num)] at n
      have : value (x ^ 2) / 2 ^ (2 * e) - (m : ℝ) ^ 2 = (value (x ^ 2) - x ^ 2) / 2 ^ (2 * e) := by rw [sub_div, x2, mul_div_assoc, div_self p2.ne', mul_one]
      rw [this, abs_div, abs_of_pos p2]
      refine lt_of_le_of_lt ?_ hl
      rw [div_le_iff₀ p2]
      linarith
    have a2 : |x ^ 2| = m ^ 2 * 2 ^ (2 * e) := by rw [abs_of_nonneg (sq_nonneg x), x2]
    by_cases hs : (m : ℝ) ^ 2 < 2 ^ 47
    · refine key 23 (ulp_eq (by omega) ?_ ?_) (by norm_num at M1 ⊢; linarith)
      · rw [a2, show 2 * e + 23 + 23 = 2 * e + 46 by ring, zpow_add₀ (by norm_num), mul_comm]
        gcongr
        calc ((2 : ℝ) ^ (46 : ℤ)) = (2 ^ 23) ^ 2 := by norm_num
          _ ≤ (m : ℝ) ^ 2 := by gcongr
      · rw [a2, show 2 * e + 23 + 24 = 2 * e + 47 by ring, zpow_add₀ (by norm_num), mul_comm ((2 : ℝ) ^ (2 * e))]
        gcongr
        exact_mod_cast hs
    · have hs' := not_lt.mp hs
      have M3 : (8388609 : ℝ) < m := by
        by_contra hc
        have hc' := not_lt.mp hc
        have : (m : ℝ) ^ 2 ≤ 8388609 ^ 2 := by gcongr
        norm_num at this hs'
        linarith
      refine key 24 (ulp_eq (by omega) ?_ ?_) (by norm_num; linarith)
      · rw [a2, show 2 * e + 24 + 23 = 2 * e + 47 by ring, zpow_add₀ (by norm_num), mul_comm]
        gcongr
        exact_mod_cast hs'
      · rw [a2, show 2 * e + 24 + 24 = 2 * e + 48 by ring, zpow_add₀ (by norm_num), mul_comm ((2 : ℝ) ^ (2 * e))]
        gcongr
        calc (m : ℝ) ^ 2 < (2 ^ 24) ^ 2 := by gcongr
          _ = (2 : ℝ) ^ (48 : ℤ) := by norm_num
  have v0 : 0 ≤ value (x ^ 2) := value_nonneg (sq_nonneg x)
  have vlow : (2 : ℝ) ^ (2 * e + 46) ≤ value (x ^ 2) := by
    have h := value_mono (a := (2 : ℝ) ^ (2 * e + 46)) (b := x ^ 2) (by
      rw [x2, zpow_add₀ (by norm_num), mul_comm]
      gcongr
      calc ((2 : ℝ) ^ (46 : ℤ)) = (2 ^ 23) ^ 2 := by norm_num
        _ ≤ (m : ℝ) ^ 2 := by gcongr)
    have h' := value_exact 1 (2 * e + 46) (by norm_num) (by omega)
    rw [Int.cast_one, one_mul] at h'
    rwa [h'] at h
  set v := value (x ^ 2) with hv
  set Y := v / 2 ^ (2 * e) with hY
  have hvY : v = Y * 2 ^ (2 * e) := by rw [hY, div_mul_cancel₀ _ p2.ne']
  have Y0 : 0 ≤ Y := by positivity
  have sY : Real.sqrt v = Real.sqrt Y * 2 ^ e := by rw [hvY, ee, Real.sqrt_mul Y0, Real.sqrt_sq p.le]
  rw [abs_lt] at near
  have up : Real.sqrt Y < m + 1 / 2 := by
    rw [Real.sqrt_lt' (by linarith)]
    nlinarith
  have lo : (m : ℝ) - 1 / 2 < Real.sqrt Y := by
    apply Real.lt_sqrt_of_sq_lt
    nlinarith
  have hlt : v < 2 ^ 128 := by
    have : x ^ 2 ≤ (2 ^ 60) ^ 2 := by gcongr
    have n := value_error (x ^ 2)
    rw [← hv, abs_of_nonneg (sq_nonneg x)] at n
    have := (abs_le.mp n).2
    norm_num at *
    linarith
  refine ⟨v, ?_, v0, ?_⟩
  · unfold round32
    rw [← hv, if_neg (not_le.mpr hlt), if_neg (not_le.mpr (by linarith [show (0 : ℝ) < 2 ^ 128 by positivity]))]
  · rw [hm]
    refine round_eq m e he (by omega) ?_ ?_ ?_
    · rw [abs_of_nonneg (Real.sqrt_nonneg _)]
      apply Real.le_sqrt_of_sq_le
      refine le_trans (le_of_eq ?_) vlow
      rw [sq, ← zpow_add₀ (by norm_num)]
      congr 1; ring
    · rw [abs_of_nonneg (Real.sqrt_nonneg _), sY, zpow_add₀ (by norm_num), mul_comm]
      gcongr
      have M4 : (m : ℝ) ≤ 2 ^ 24 - 1 := by
        have : m < 2 ^ 24 := by exact_mod_cast M2
        have : m ≤ 2 ^ 24 - 1 := by omega
        exact_mod_cast this
      norm_num at M4 ⊢
      linarith
    · rw [sY, mul_div_assoc, div_self p.ne', mul_one, abs_lt]
      constructor <;> linarith

end Binary32
