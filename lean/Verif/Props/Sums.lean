import Verif.Props.Calculation2
import Verif.FormulaLemmas

/-!
# C115 and C116: what sums and differences of colours are

RGB colours are added quadratically, CIE colours, greys and CMYK colours component by component, HSV colours as vectors; the other types go through HSV or XYZ.
-/

open Outcome Fl Prog ObjectSpec ConvSpec BlendSpec

namespace CalcSpec

/-- `x` limited to the range of channel `i` of type `t`. -/
noncomputable def within (t : ColorType) (i : Nat) (x : ℝ) : ℝ := max (Calc.setterRange t i).1 (min (Calc.setterRange t i).2 x)

/-- The weighted sum of two channels: the root of the sum of squares for RGB, the plain sum for the other types. -/
noncomputable def weighted (t : ColorType) (w1 w2 x y : ℝ) : ℝ :=
  if t = .rgbTrue ∨ t = .rgbDeep then Real.sqrt (w1 * x ^ 2 + w2 * y ^ 2) else w1 * x + w2 * y

/-- The angle of `h` degrees. -/
noncomputable def angleOf (h : ℝ) : ℝ := h / 180 * Real.pi

/-- The vector `(x, y)` has length `s` and direction `h` degrees, `0 ≤ h < 360`. -/
structure PolarOf (x y h s : ℝ) : Prop where
  lo : 0 ≤ h
  hi : h < 360
  len : s = Real.sqrt (x ^ 2 + y ^ 2)
  cos : s * Real.cos (angleOf h) = x
  sin : s * Real.sin (angleOf h) = y
  null : s = 0 → h = 0

/-- The arithmetic of the type `t` is done with colours of type `m`. -/
inductive Through : ColorType → ColorType → Prop
  | hsi : Through .hsi .hsv
  | hsl : Through .hsl .hsv
  | hcy : Through .hcy .hsv
  | lab : Through .lab .xyz
  | lchAb : Through .lchAb .xyz
  | lchUv : Through .lchUv .xyz

/-- Called with pointers to `a` and `b`, wherever these are stored, the function returns a pointer to a new object, which is `r`. -/
def Returns (p : Ptr → Ptr → Prog Ptr) (w : World) (a b r : Color) : Prop :=
  ∀ (h : Heap) (i j : Nat), h.world = w → h.colors[i]? = some a → h.colors[j]? = some b →
    ∃ q h', p (some i) (some j) h = (ok (some q), h') ∧ h'.colors[q]? = some r ∧ h.colors.length ≤ q

end CalcSpec

open CalcSpec Calc Hue

namespace Calc

section
variable [FloatModel] [ExactModel]

omit [ExactModel] in
theorem construct_within {t : ColorType} (ht : Flat t) (f : Nat → ℝ) (al : Fl) (sp : Option Nat) :
    Color.construct t ((List.range (Color.count t)).map (fun i => fin (f i))) al sp =
      ok ⟨t, t, (List.range (Color.count t)).map (fun i => fin (within t i (f i))), if Color.scalesAlpha t then Color.clamp (al / 255) 1 0 else al, Color.maxOf t, Color.minOf t, sp⟩ := by
  have r1 : List.range 1 = [0] := rfl
  have r3 : List.range 3 = [0, 1, 2] := rfl
  have r4 : List.range 4 = [0, 1, 2, 3] := rfl
  rcases ht with rfl | rfl | rfl | rfl | rfl | rfl | rfl | rfl <;>
    simp [Color.count, r1, r3, r4, Color.construct_rgbTrue, Color.construct_rgbDeep, Color.construct_greyTrue, Color.construct_greyDeep, Color.construct_cmyk, Color.construct_xyz, Color.construct_xyy,
      Color.construct_cieluv, Color.mkRgbTrue, Color.mkRgbDeep, Color.mkGreyTrue, Color.mkGreyDeep, Color.mkCmyk, Color.mkXyz, Color.mkCieluv, Color.clamp_fin,
      within, setterRange, channelRange, Color.scalesAlpha, Color.maxOf, Color.minOf, max_comm, min_comm]

theorem quadratic_general {w1 w2 x y : ℝ} (h1 : 0 ≤ w1) (h2 : 0 ≤ w2) : quadratic (fin w1) (fin w2) (fin x) (fin y) = fin (Real.sqrt (w1 * x ^ 2 + w2 * y ^ 2)) := by
  have p : ∀ x : ℝ, powf (fin x) 2 = fin (x ^ 2) := by
    intro x
    rw [lit_def, ExactModel.powf_eq x 2 (Or.inr (Or.inr ⟨2, by norm_num⟩))]
    norm_cast
  simp only [quadratic, p, mul_exact, add_exact]
  rw [sqrt_exact]
  positivity

theorem linear_general (w1 w2 x y : ℝ) : linear (fin w1) (fin w2) (fin x) (fin y) = fin (w1 * x + w2 * y) := by
  simp [linear]

omit [FloatModel] [ExactModel] in
theorem weighted_scale (t : ColorType) (w1 w2 x y : ℝ) {k : ℝ} (hk : 0 ≤ k) : weighted t w1 w2 (x * k) (y * k) = weighted t w1 w2 x y * k := by
  unfold weighted
  split
  · rw [show w1 * (x * k) ^ 2 + w2 * (y * k) ^ 2 = (w1 * x ^ 2 + w2 * y ^ 2) * k ^ 2 by ring, Real.sqrt_mul' _ (sq_nonneg k), Real.sqrt_sq hk]
  · ring

omit [FloatModel] [ExactModel] in
theorem byteLimit_fin (x : ℝ) : byteLimit (fin x) = fin (max 0 (min 255 x)) := by
  simp only [byteLimit, zero_def, lit_def, fmax_fin, fmin_fin]
  congr 1
  rw [max_min_distrib_left]
  norm_num [max_comm, min_comm]

/-- The opacity of a sum or difference `S` of opacities: limited for the 8-bit types only. -/
noncomputable def opacityOf (t : ColorType) (ia : Bool) (S x : ℝ) : ℝ := if ia then (if Color.scalesAlpha t then max 0 (min 1 S) else S) else x

/-- The alpha the constructor stores, if the alpha is limited to bytes before. -/
theorem scaled_alpha {S : ℝ} : Color.clamp (byteLimit (fin (S * 255)) / 255) 1 0 = fin (max 0 (min 1 S)) := by
  rw [byteLimit_fin, lit_def, div_exact _ _ (by norm_num), one_def, zero_def, Color.clamp_fin]
  congr 1
  have e : max 0 (min 255 (S * 255)) / 255 = max 0 (min 1 S) := by
    have h1 : min 255 (S * 255) = min 1 S * 255 := by rw [min_mul_of_nonneg _ _ (by norm_num)]; norm_num
    have h2 : max 0 (min 1 S * 255) = max 0 (min 1 S) * 255 := by rw [max_mul_of_nonneg _ _ (by norm_num)]; norm_num
    rw [h1, h2, mul_div_cancel_right₀ _ (by norm_num)]
  rw [e, min_eq_left (max_le (by norm_num) (min_le_left _ _)), max_eq_left (le_max_left _ _)]

theorem addVal_general {t : ColorType} (ht : Flat t) {a b : Color} (ha : Proper t a) (hb : Proper t b) {w1 w2 : ℝ} (h1 : 0 ≤ w1) (h2 : 0 ≤ w2) (ia : Bool) :
    addVal t (fin w1) (fin w2) ia a b = ok ⟨t, t, (List.range (Color.count t)).map (fun i => fin (within t i (weighted t w1 w2 (chan a i) (chan b i)))),
      fin (opacityOf t ia (weighted t w1 w2 (opac a) (opac b)) (opac a)), Color.maxOf t, Color.minOf t, a.space⟩ := by
  have hz := zip_all (quadratic (fin w1) (fin w2)) ha.col hb.col
  have hz' := zip_all (linear (fin w1) (fin w2)) ha.col hb.col
  rw [ha.comps, hb.comps, zipWith_range] at hz hz'
  simp only [quadratic_general h1 h2] at hz
  simp only [linear_general] at hz'
  have hq : ∀ x y, (t = .rgbTrue ∨ t = .rgbDeep) → Real.sqrt (w1 * x ^ 2 + w2 * y ^ 2) = weighted t w1 w2 x y := fun x y h => by rw [weighted, if_pos h]
  have hn : ∀ x y, ¬ (t = .rgbTrue ∨ t = .rgbDeep) → w1 * x + w2 * y = weighted t w1 w2 x y := fun x y h => by rw [weighted, if_neg h]
  have hsc := weighted_scale t w1 w2 (opac a) (opac b) (k := 255) (by norm_num)
  have hc := construct_within ht (fun i => weighted t w1 w2 (chan a i) (chan b i)) (alphaOf (linear (fin w1) (fin w2)) ia a b) a.space
  have bytes : Color.scalesAlpha t = true → (List.map byteLimit (List.map (fun i => fin (weighted t w1 w2 (chan a i) (chan b i))) (List.range (Color.count t)))) =
      List.map (fun i => fin (max 0 (min 255 (weighted t w1 w2 (chan a i) (chan b i))))) (List.range (Color.count t)) := by
    intro _
    rw [List.map_map]
    exact List.map_congr_left fun i _ => byteLimit_fin _
  have twice : ∀ x : ℝ, max 0 (min 255 (max 0 (min 255 x))) = max 0 (min 255 x) := fun x => by
    rw [min_eq_right (max_le (by norm_num) (min_le_left _ _)), max_eq_right (le_max_left _ _)]
  have alph : ∀ S : ℝ, Color.scalesAlpha t = true → Color.clamp (byteLimit (if ia = true then fin (S * 255) else fin (opac a * 255)) / 255) 1 0 = fin (opacityOf t ia S (opac a)) := by
    intro S hs
    cases ia
    · simp only [opacityOf, Bool.false_eq_true, if_false]
      rw [scaled_alpha, min_eq_right ha.opac_range.2, max_eq_right ha.opac_range.1]
    · simp only [opacityOf, if_true, hs, scaled_alpha]
  rcases ht with rfl | rfl | rfl | rfl | rfl | rfl | rfl | rfl
  case inl =>
    simp only [hq _ _ (Or.inl rfl)] at hz
    simp only [addVal]
    rw [show (3 : Nat) = Color.count .rgbTrue from rfl, hz, ok_bind, bytes rfl, construct_within (by simp [Flat])]
    simp only [alphaOf, ha.alpha_eq, hb.alpha_eq, Color.scalesAlpha, if_true, quadratic_general h1 h2, hq _ _ (Or.inl rfl), hsc, alph _ rfl]
    simp only [within, setterRange, channelRange, twice]
  case inr.inl =>
    simp only [hq _ _ (Or.inr rfl)] at hz
    simp only [addVal]
    rw [show (3 : Nat) = Color.count .rgbDeep from rfl, hz, ok_bind, construct_within (by simp [Flat])]
    simp only [alphaOf, ha.alpha_eq, hb.alpha_eq, Color.scalesAlpha, Bool.false_eq_true, if_false, quadratic_general h1 h2, hq _ _ (Or.inr rfl), opacityOf, ← apply_ite fin]
  case inr.inr.inl =>
    simp only [hn _ _ (by simp : ¬ (ColorType.greyTrue = .rgbTrue ∨ ColorType.greyTrue = .rgbDeep))] at hz'
    simp only [addVal]
    rw [show (1 : Nat) = Color.count .greyTrue from rfl, hz', ok_bind, bytes rfl, construct_within (by simp [Flat])]
    simp only [alphaOf, ha.alpha_eq, hb.alpha_eq, Color.scalesAlpha, if_true, linear_general, hn _ _ (by simp : ¬ (ColorType.greyTrue = .rgbTrue ∨ ColorType.greyTrue = .rgbDeep)), hsc, alph _ rfl]
    simp only [within, setterRange, channelRange, twice]
  all_goals
    simp only [hn _ _ (by simp)] at hz'
    simp only [Color.count] at hz' hc
    simp only [addVal, hz', ok_bind]
    rw [hc]
    simp only [alphaOf, ha.alpha_eq, hb.alpha_eq, Color.scalesAlpha, Bool.false_eq_true, if_false, linear_general, hn (opac a) (opac b) (by simp), opacityOf, Color.count, ← apply_ite fin]

theorem subVal_general {t : ColorType} (ht : Flat t) {a b : Color} (ha : Proper t a) (hb : Proper t b) (w : ℝ) (ia : Bool) :
    subVal t (fin w) ia a b = ok ⟨t, t, (List.range (Color.count t)).map (fun i => fin (within t i (chan a i - w * chan b i))),
      fin (opacityOf t ia (opac a - w * opac b) (opac a)), Color.maxOf t, Color.minOf t, a.space⟩ := by
  have hm : ∀ x y : ℝ, minus (fin w) (fin x) (fin y) = fin (x - w * y) := fun x y => by simp [minus]
  have hz := zip_all (minus (fin w)) ha.col hb.col
  rw [ha.comps, hb.comps, zipWith_range] at hz
  simp only [hm] at hz
  have hc := construct_within ht (fun i => chan a i - w * chan b i) (alphaOf (minus (fin w)) ia a b) a.space
  have alph : Color.scalesAlpha t = true → Color.clamp ((if ia = true then fin (opac a * 255 - w * (opac b * 255)) else fin (opac a * 255)) / 255) 1 0 =
      fin (opacityOf t ia (opac a - w * opac b) (opac a)) := by
    intro hs
    have e : ∀ S : ℝ, Color.clamp (fin (S * 255) / 255) 1 0 = fin (max 0 (min 1 S)) := fun S => by
      rw [lit_def, div_exact _ _ (by norm_num), mul_div_cancel_right₀ _ (by norm_num), one_def, zero_def, Color.clamp_fin, max_comm, min_comm]
    cases ia
    · simp only [opacityOf, Bool.false_eq_true, if_false]
      rw [e, min_eq_right ha.opac_range.2, max_eq_right ha.opac_range.1]
    · simp only [opacityOf, if_true, hs]
      rw [show opac a * 255 - w * (opac b * 255) = (opac a - w * opac b) * 255 by ring, e]
  rcases ht with rfl | rfl | rfl | rfl | rfl | rfl | rfl | rfl <;>
    (simp only [Color.count] at hz hc
     simp only [subVal, hz, ok_bind]
     rw [hc]
     simp only [alphaOf, ha.alpha_eq, hb.alpha_eq, Color.scalesAlpha, Bool.false_eq_true, if_false, if_true, hm, Color.count]
     first
       | rw [alph rfl]
       | simp only [opacityOf, Color.scalesAlpha, Bool.false_eq_true, if_false, ← apply_ite fin])

end

end Calc

section
variable [FloatModel] [ExactModel]

/-- C115 for RGB, grey, CMYK, XYZ, xyY and CIELUV colours: every channel is the weighted sum, limited to the range of the channel. -/
theorem C115_componentwise (t : ColorType) (ht : Flat t) (a b : Color) (ha : Proper t a) (hb : Proper t b) (w1 w2 : ℝ) (h1 : 0 ≤ w1 ∧ w1 ≤ 1) (h2 : 0 ≤ w2 ∧ w2 ≤ 1) (ia : Bool) (wl : World) :
    ∃ r, Yields (addOf t (fin w1) (fin w2) ia) wl a b r ∧ IsColor t r ∧ r.space = a.space ∧
      (∀ i < Color.count t, r.comps[i]? = some (fin (within t i (weighted t w1 w2 (chan a i) (chan b i))))) ∧
      (ia = false → HasOpacity r (opac a)) ∧
      (ia = true → EightBit t → HasOpacity r (max 0 (min 1 (weighted t w1 w2 (opac a) (opac b))))) ∧
      (ia = true → ¬ EightBit t → HasOpacity r (weighted t w1 w2 (opac a) (opac b))) := by
  have ho : addOf t (fin w1) (fin w2) ia = addOwn t (fin w1) (fin w2) ia := by rcases ht with rfl | rfl | rfl | rfl | rfl | rfl | rfl | rfl <;> rfl
  have hE : EightBit t ↔ Color.scalesAlpha t = true := by cases t <;> simp [EightBit, Color.scalesAlpha]
  have hcol : ∀ f al, IsColor t ⟨t, t, (List.range (Color.count t)).map f, al, Color.maxOf t, Color.minOf t, a.space⟩ := fun f al => ⟨rfl, rfl, by simp, rfl, rfl⟩
  refine ⟨_, by rw [ho]; exact addOwn_yields (pass_of ⟨w1, rfl, h1⟩) (pass_of ⟨w2, rfl, h2⟩) (addVal_general ht ha hb h1.1 h2.1 ia), hcol _ _, rfl, fun i hi => ?_, ?_, ?_, ?_⟩
  · simp [List.getElem?_range hi]
  · rintro rfl
    rw [hasOpacity_iff (hcol _ _)]; rfl
  · rintro rfl h8
    rw [hasOpacity_iff (hcol _ _)]; simp only [opacityOf, if_true, hE.mp h8]
  · rintro rfl h8
    rw [hasOpacity_iff (hcol _ _)]; simp only [opacityOf, if_true, if_neg (fun hh => h8 (hE.mpr hh))]

/-- C116 for RGB, grey, CMYK, XYZ, xyY and CIELUV colours: every channel is the difference, limited to the range of the channel. -/
theorem C116_componentwise (t : ColorType) (ht : Flat t) (a b : Color) (ha : Proper t a) (hb : Proper t b) (w : ℝ) (h0 : 0 ≤ w) (h1 : w ≤ 1) (ia : Bool) (wl : World) :
    ∃ r, Yields (subOf t (fin w) ia) wl a b r ∧ IsColor t r ∧ r.space = a.space ∧
      (∀ i < Color.count t, r.comps[i]? = some (fin (within t i (chan a i - w * chan b i)))) ∧
      (ia = false → HasOpacity r (opac a)) ∧
      (ia = true → EightBit t → HasOpacity r (max 0 (min 1 (opac a - w * opac b)))) ∧ (ia = true → ¬ EightBit t → HasOpacity r (opac a - w * opac b)) := by
  have ho : subOf t (fin w) ia = subOwn t (fin w) ia := by rcases ht with rfl | rfl | rfl | rfl | rfl | rfl | rfl | rfl <;> rfl
  have hE : EightBit t ↔ Color.scalesAlpha t = true := by cases t <;> simp [EightBit, Color.scalesAlpha]
  have hcol : ∀ f al, IsColor t ⟨t, t, (List.range (Color.count t)).map f, al, Color.maxOf t, Color.minOf t, a.space⟩ := fun f al => ⟨rfl, rfl, by simp, rfl, rfl⟩
  refine ⟨_, by rw [ho]; exact subOwn_yields (pass_of ⟨w, rfl, h0, h1⟩) (subVal_general ht ha hb w ia), hcol _ _, rfl, fun i hi => ?_, ?_, ?_, ?_⟩
  · simp [List.getElem?_range hi]
  · rintro rfl
    rw [hasOpacity_iff (hcol _ _)]; rfl
  · rintro rfl h8
    rw [hasOpacity_iff (hcol _ _)]; simp only [opacityOf, if_true, hE.mp h8]
  · rintro rfl h8
    rw [hasOpacity_iff (hcol _ _)]; simp only [opacityOf, if_true, if_neg (fun hh => h8 (hE.mpr hh))]

omit [ExactModel] in
theorem Calc.proper_rgb {x y z al : ℝ} (hx : 0 ≤ x ∧ x ≤ 1) (hy : 0 ≤ y ∧ y ≤ 1) (hz : 0 ≤ z ∧ z ≤ 1) (ha : 0 ≤ al ∧ al ≤ 1) :
    Proper .rgbDeep ⟨.rgbDeep, .rgbDeep, [fin x, fin y, fin z], fin al, 1, 0, none⟩ := by
  refine ⟨⟨rfl, rfl, rfl, rfl, rfl⟩, fun i hi => ?_, ⟨al, rfl, ha⟩⟩
  match i, hi with
  | 0, _ => exact ⟨_, rfl, hx⟩
  | 1, _ => exact ⟨_, rfl, hy⟩
  | 2, _ => exact ⟨_, rfl, hz⟩

/-- Red and green make yellow; half of a light grey and all of a dark one make `√(0.5·0.8² + 0.2²) = 0.6`. -/
example (wl : World) : (∃ r, Yields (addOf .rgbDeep (fin 1) (fin 1) false) wl ⟨.rgbDeep, .rgbDeep, [fin 1, fin 0, fin 0], fin 1, 1, 0, none⟩
      ⟨.rgbDeep, .rgbDeep, [fin 0, fin 1, fin 0], fin 1, 1, 0, none⟩ r ∧ r.comps[0]? = some (fin 1) ∧ r.comps[1]? = some (fin 1) ∧ r.comps[2]? = some (fin 0)) ∧
    (∃ r, Yields (addOf .rgbDeep (fin 0.5) (fin 1) true) wl ⟨.rgbDeep, .rgbDeep, [fin 0.8, fin 0.8, fin 0.8], fin 0.8, 1, 0, none⟩
      ⟨.rgbDeep, .rgbDeep, [fin 0.2, fin 0.2, fin 0.2], fin 0.2, 1, 0, none⟩ r ∧ r.comps[0]? = some (fin 0.6) ∧ HasOpacity r 0.6) := by
  constructor
  · obtain ⟨r, y, -, -, c, -⟩ := C115_componentwise .rgbDeep (by simp [Flat]) _ _ (proper_rgb (x := 1) (y := 0) (z := 0) (al := 1) (by norm_num) (by norm_num) (by norm_num) (by norm_num))
      (proper_rgb (x := 0) (y := 1) (z := 0) (al := 1) (by norm_num) (by norm_num) (by norm_num) (by norm_num)) 1 1 (by norm_num) (by norm_num) false wl
    refine ⟨r, y, ?_, ?_, ?_⟩
    · rw [c 0 (by decide)]; norm_num [within, weighted, chan, setterRange, channelRange]
    · rw [c 1 (by decide)]; norm_num [within, weighted, chan, setterRange, channelRange]
    · rw [c 2 (by decide)]; norm_num [within, weighted, chan, setterRange, channelRange]
  · obtain ⟨r, y, -, -, c, -, -, o⟩ := C115_componentwise .rgbDeep (by simp [Flat]) _ _ (proper_rgb (x := 0.8) (y := 0.8) (z := 0.8) (al := 0.8) (by norm_num) (by norm_num) (by norm_num) (by norm_num))
      (proper_rgb (x := 0.2) (y := 0.2) (z := 0.2) (al := 0.2) (by norm_num) (by norm_num) (by norm_num) (by norm_num)) 0.5 1 (by norm_num) (by norm_num) true wl
    have e : Real.sqrt (0.5 * 0.8 ^ 2 + 1 * 0.2 ^ 2) = (0.6 : ℝ) := by
      rw [show (0.5 * 0.8 ^ 2 + 1 * 0.2 ^ 2 : ℝ) = 0.6 ^ 2 by norm_num, Real.sqrt_sq (by norm_num)]
    refine ⟨r, y, ?_, ?_⟩
    · rw [c 0 (by decide)]
      simp only [within, weighted, chan, setterRange, channelRange, List.getElem?_cons_zero, or_true, if_true, e]
      norm_num
    · have := o rfl (by simp [EightBit])
      simpa only [weighted, opac, or_true, if_true, e] using this

/-- Blue and red subtracted from white leave green. -/
example (wl : World) : ∃ r, Yields (subOf .rgbDeep (fin 1) false) wl ⟨.rgbDeep, .rgbDeep, [fin 1, fin 1, fin 1], fin 1, 1, 0, none⟩
      ⟨.rgbDeep, .rgbDeep, [fin 1, fin 0, fin 1], fin 1, 1, 0, none⟩ r ∧ r.comps[0]? = some (fin 0) ∧ r.comps[1]? = some (fin 1) := by
  obtain ⟨r, y, -, -, c, -⟩ := C116_componentwise .rgbDeep (by simp [Flat]) _ _ (proper_rgb (x := 1) (y := 1) (z := 1) (al := 1) (by norm_num) (by norm_num) (by norm_num) (by norm_num))
    (proper_rgb (x := 1) (y := 0) (z := 1) (al := 1) (by norm_num) (by norm_num) (by norm_num) (by norm_num)) 1 (by norm_num) (by norm_num) false wl
  refine ⟨r, y, ?_, ?_⟩
  · rw [c 0 (by decide)]; norm_num [within, chan, setterRange, channelRange]
  · rw [c 1 (by decide)]; norm_num [within, chan, setterRange, channelRange]

/-! ## HSV -/

omit [FloatModel] [ExactModel] in
theorem Calc.polar_exists (x y : ℝ) : PolarOf x y (360 * Int.fract (Complex.arg ⟨x, y⟩ * 180 / Real.pi / 360)) (Real.sqrt (x ^ 2 + y ^ 2)) := by
  have hn : ‖(⟨x, y⟩ : ℂ)‖ = Real.sqrt (x ^ 2 + y ^ 2) := by
    rw [Complex.norm_def, Complex.normSq_mk]; congr 1; ring
  have hpi := Real.pi_pos
  have ea : angleOf (360 * Int.fract (Complex.arg ⟨x, y⟩ * 180 / Real.pi / 360)) = Complex.arg ⟨x, y⟩ - ⌊Complex.arg ⟨x, y⟩ * 180 / Real.pi / 360⌋ * (2 * Real.pi) := by
    rw [angleOf, Int.fract]; field_simp; ring
  refine ⟨mul_nonneg (by norm_num) (Int.fract_nonneg _), by have := Int.fract_lt_one (Complex.arg ⟨x, y⟩ * 180 / Real.pi / 360); linarith, rfl, ?_, ?_, ?_⟩
  · rw [ea, Real.cos_sub_int_mul_two_pi, ← hn]; exact Complex.norm_mul_cos_arg _
  · rw [ea, Real.sin_sub_int_mul_two_pi, ← hn]; exact Complex.norm_mul_sin_arg _
  · intro h
    rw [← hn, norm_eq_zero] at h
    rw [h]; simp

theorem Calc.fromVector_polar (x y z : ℝ) (al : Fl) (sp : Option Nat) : ∃ H S, PolarOf x y H S ∧
    Color.construct .hsv (fromVector (fin x, fin y, fin z)) al sp = ok ⟨.hsv, .hsv, [fin (min H 359), fin (min S 1), fin (max 0 (min 1 z))], al, 1, 0, sp⟩ := by
  have p : ∀ x : ℝ, powf (fin x) (fin 2) = fin (x ^ 2) := by
    intro x
    rw [ExactModel.powf_eq x 2 (Or.inr (Or.inr ⟨2, by norm_num⟩))]
    norm_cast
  have h := polar_exists x y
  refine ⟨_, _, h, ?_⟩
  have e : fromVector (fin x, fin y, fin z) = [fin (Complex.arg ⟨x, y⟩ * 180 / Real.pi), fin (Real.sqrt (x ^ 2 + y ^ 2)), fin z] := by
    simp only [fromVector, ExactModel.atan2f_eq, lit_exact, lit_def, p, add_exact, mul_exact]
    rw [div_exact _ _ Real.pi_ne_zero, sqrt_exact _ (by positivity)]
  rw [e, Color.construct_hsv, Color.mkHue, Color.hueReduce_fin _ (rnd_exact _)]
  simp only [lit_def, zero_def, one_def, Color.clamp_fin]
  rw [max_eq_left (le_min h.lo (by norm_num)), max_eq_left (le_min (Real.sqrt_nonneg _) (by norm_num)), max_comm _ (0 : ℝ), min_comm z]

theorem Calc.proper_get {a : Color} (ha : Proper .hsv a) : a.getComponent 0 = ok (fin (chan a 0)) ∧ a.getComponent 1 = ok (fin (chan a 1)) ∧ a.getComponent 2 = ok (fin (chan a 2)) := by
  have h := ha.comps
  rw [show List.range (Color.count .hsv) = [0, 1, 2] from rfl] at h
  simp [Color.getComponent, h]

theorem Calc.toVector_exact (h s v : ℝ) : toVector (fin h) (fin s) (fin v) = (fin (Real.cos (angleOf h) * s), fin (Real.sin (angleOf h) * s), fin v) := by
  simp only [toVector, lit_def, lit_exact]
  rw [div_exact _ _ (by norm_num)]
  simp only [mul_exact, ExactModel.sinf_eq, ExactModel.cosf_eq, angleOf]

/-- C115 for HSV colours: a colour is the vector whose direction is the hue and whose length is the saturation; the vectors and the values are added with their weights.  A hue above 359
degrees is stored as 359. -/
theorem C115_hsv (a b : Color) (ha : Proper .hsv a) (hb : Proper .hsv b) (w1 w2 : ℝ) (h1 : 0 ≤ w1 ∧ w1 ≤ 1) (h2 : 0 ≤ w2 ∧ w2 ≤ 1) (ia : Bool) (wl : World) :
    ∃ H S r, PolarOf (w1 * (chan a 1 * Real.cos (angleOf (chan a 0))) + w2 * (chan b 1 * Real.cos (angleOf (chan b 0))))
        (w1 * (chan a 1 * Real.sin (angleOf (chan a 0))) + w2 * (chan b 1 * Real.sin (angleOf (chan b 0)))) H S ∧
      Yields (addOf .hsv (fin w1) (fin w2) ia) wl a b r ∧ IsColor .hsv r ∧ r.space = a.space ∧
      r.comps = [fin (min H 359), fin (min S 1), fin (max 0 (min 1 (w1 * chan a 2 + w2 * chan b 2)))] ∧
      HasOpacity r (if ia then w1 * opac a + w2 * opac b else opac a) := by
  obtain ⟨a0, a1, a2⟩ := proper_get ha
  obtain ⟨b0, b1, b2⟩ := proper_get hb
  obtain ⟨H, S, hp, he⟩ := fromVector_polar (w1 * (Real.cos (angleOf (chan a 0)) * chan a 1) + w2 * (Real.cos (angleOf (chan b 0)) * chan b 1))
    (w1 * (Real.sin (angleOf (chan a 0)) * chan a 1) + w2 * (Real.sin (angleOf (chan b 0)) * chan b 1)) (w1 * chan a 2 + w2 * chan b 2)
    (fin (if ia then w1 * opac a + w2 * opac b else opac a)) a.space
  have hcol : ∀ x y z al, IsColor .hsv ⟨.hsv, .hsv, [x, y, z], al, 1, 0, a.space⟩ := fun _ _ _ _ => ⟨rfl, rfl, rfl, rfl, rfl⟩
  refine ⟨H, S, _, by simpa only [mul_comm (chan _ 1)] using hp, addOwn_yields (pass_of ⟨w1, rfl, h1⟩) (pass_of ⟨w2, rfl, h2⟩) ?_, hcol _ _ _ _, rfl, rfl,
    (hasOpacity_iff (hcol _ _ _ _) _).mpr rfl⟩
  simp only [addVal, a0, a1, a2, b0, b1, b2, ok_bind, toVector_exact, linear_general]
  rw [← he]
  simp only [alphaOf, ha.alpha_eq, hb.alpha_eq, Color.scalesAlpha, Bool.false_eq_true, if_false, linear_general, ← apply_ite fin]

/-- C116 for HSV colours: the vectors and the values are subtracted. -/
theorem C116_hsv (a b : Color) (ha : Proper .hsv a) (hb : Proper .hsv b) (w : ℝ) (h0 : 0 ≤ w) (h1 : w ≤ 1) (ia : Bool) (wl : World) :
    ∃ H S r, PolarOf (chan a 1 * Real.cos (angleOf (chan a 0)) - w * (chan b 1 * Real.cos (angleOf (chan b 0))))
        (chan a 1 * Real.sin (angleOf (chan a 0)) - w * (chan b 1 * Real.sin (angleOf (chan b 0)))) H S ∧
      Yields (subOf .hsv (fin w) ia) wl a b r ∧ IsColor .hsv r ∧ r.space = a.space ∧
      r.comps = [fin (min H 359), fin (min S 1), fin (max 0 (min 1 (chan a 2 - w * chan b 2)))] ∧
      HasOpacity r (if ia then opac a - w * opac b else opac a) := by
  obtain ⟨a0, a1, a2⟩ := proper_get ha
  obtain ⟨b0, b1, b2⟩ := proper_get hb
  obtain ⟨H, S, hp, he⟩ := fromVector_polar (Real.cos (angleOf (chan a 0)) * chan a 1 - w * (Real.cos (angleOf (chan b 0)) * chan b 1))
    (Real.sin (angleOf (chan a 0)) * chan a 1 - w * (Real.sin (angleOf (chan b 0)) * chan b 1)) (chan a 2 - w * chan b 2)
    (fin (if ia then opac a - w * opac b else opac a)) a.space
  have hm : ∀ x y : ℝ, minus (fin w) (fin x) (fin y) = fin (x - w * y) := fun x y => by simp [minus]
  have hcol : ∀ x y z al, IsColor .hsv ⟨.hsv, .hsv, [x, y, z], al, 1, 0, a.space⟩ := fun _ _ _ _ => ⟨rfl, rfl, rfl, rfl, rfl⟩
  refine ⟨H, S, _, by simpa only [mul_comm (chan _ 1)] using hp, subOwn_yields (pass_of ⟨w, rfl, h0, h1⟩) ?_, hcol _ _ _ _, rfl, rfl, (hasOpacity_iff (hcol _ _ _ _) _).mpr rfl⟩
  simp only [subVal, a0, a1, a2, b0, b1, b2, ok_bind, toVector_exact, hm]
  rw [← he]
  simp only [alphaOf, ha.alpha_eq, hb.alpha_eq, Color.scalesAlpha, Bool.false_eq_true, if_false, hm, ← apply_ite fin]

omit [ExactModel] in
theorem Calc.proper_hsv {x y z al : ℝ} (hx : 0 ≤ x ∧ x ≤ 359) (hy : 0 ≤ y ∧ y ≤ 1) (hz : 0 ≤ z ∧ z ≤ 1) (ha : 0 ≤ al ∧ al ≤ 1) :
    Proper .hsv ⟨.hsv, .hsv, [fin x, fin y, fin z], fin al, 1, 0, none⟩ := by
  refine ⟨⟨rfl, rfl, rfl, rfl, rfl⟩, fun i hi => ?_, ⟨al, rfl, ha⟩⟩
  match i, hi with
  | 0, _ => exact ⟨_, rfl, hx⟩
  | 1, _ => exact ⟨_, rfl, hy⟩
  | 2, _ => exact ⟨_, rfl, hz⟩

/-- Opposite hues cancel: equal parts of cyan and red have no saturation, and half the value each. -/
example (wl : World) : ∃ r, Yields (addOf .hsv (fin 0.5) (fin 0.5) false) wl ⟨.hsv, .hsv, [fin 180, fin 1, fin 1], fin 1, 1, 0, none⟩
      ⟨.hsv, .hsv, [fin 0, fin 1, fin 0.5], fin 1, 1, 0, none⟩ r ∧ r.comps = [fin 0, fin 0, fin 0.75] := by
  obtain ⟨H, S, r, p, y, -, -, c, -⟩ := C115_hsv _ _ (proper_hsv (x := 180) (y := 1) (z := 1) (al := 1) (by norm_num) (by norm_num) (by norm_num) (by norm_num))
    (proper_hsv (x := 0) (y := 1) (z := 0.5) (al := 1) (by norm_num) (by norm_num) (by norm_num) (by norm_num)) 0.5 0.5 (by norm_num) (by norm_num) false wl
  have e1 : angleOf 180 = Real.pi := by rw [angleOf]; ring
  have e2 : angleOf 0 = 0 := by rw [angleOf]; ring
  simp only [chan, List.getElem?_cons_zero, List.getElem?_cons_succ, e1, e2, Real.cos_pi, Real.sin_pi, Real.cos_zero, Real.sin_zero] at p c
  have hS : S = 0 := by rw [p.len]; norm_num
  have hH : H = 0 := p.null hS
  refine ⟨r, y, ?_⟩
  rw [c, hS, hH]
  norm_num

/-- A colour minus itself is black. -/
example (wl : World) : ∃ r, Yields (subOf .hsv (fin 1) false) wl ⟨.hsv, .hsv, [fin 200, fin 0.7, fin 0.4], fin 1, 1, 0, none⟩
      ⟨.hsv, .hsv, [fin 200, fin 0.7, fin 0.4], fin 1, 1, 0, none⟩ r ∧ r.comps = [fin 0, fin 0, fin 0] := by
  have hp := proper_hsv (x := 200) (y := 0.7) (z := 0.4) (al := 1) (by norm_num) (by norm_num) (by norm_num) (by norm_num)
  obtain ⟨H, S, r, p, y, -, -, c, -⟩ := C116_hsv _ _ hp hp 1 (by norm_num) (by norm_num) false wl
  have hS : S = 0 := by rw [p.len]; norm_num
  have hH : H = 0 := p.null hS
  refine ⟨r, y, ?_⟩
  rw [c, hS, hH]
  norm_num

end

/-! ## The types that go through another one, and the functions for `color_base` -/

section
variable [FloatModel]

/-- C115 for HSI, HSL, HCY, LAB and LCH colours, with every rounding: convert both colours to HSV (XYZ), add, and convert back. -/
theorem C115_through (t m : ColorType) (hm : Through t m) (a b : Color) (ha : IsColor t a) (hb : IsColor t b) (w1 w2 : Fl) (h1 : Weight w1) (h2 : Weight w2) (ia : Bool) (w : World)
    (hw : Cie t → w.Usable a.space ∧ w.Usable b.space) :
    ∃ a' b' s r, Converts w a m a' ∧ Converts w b m b' ∧ Yields (addOf m w1 w2 ia) w a' b' s ∧ Converts w s t r ∧ Yields (addOf t w1 w2 ia) w a b r := by
  have ht : t ≠ .undefined := by cases hm <;> simp
  have hmd : middle t = m := by cases hm <;> rfl
  have hm0 : m ≠ .undefined := by cases hm <;> simp
  obtain ⟨a', b', s, r, ea, eb, es, cs, er, hf⟩ :=
    through_total (f := fun m => addVal m w1 w2 ia) ht (fun m hm hd a b ha hb => addVal_total hm hd w1 w2 ia ha hb) ha hb hw
  obtain ⟨r', er', hy, -⟩ := addOf_yields ht (pass_of h1) (pass_of h2) ia ha hb hw
  have hrr : r' = r := by
    simp only [throughVal, ea, eb, es, er, ok_bind, ok_inj] at er'
    exact er'.symm
  rw [hmd] at ea eb es cs er
  refine ⟨a', b', s, r, (converts_iff ht hm0 ha).mpr ea, (converts_iff ht hm0 hb).mpr eb, ?_, (converts_iff hm0 ht cs).mpr er, hrr ▸ hy⟩
  have ho : addOf m w1 w2 ia = addOwn m w1 w2 ia := by cases hm <;> rfl
  rw [ho]
  exact addOwn_yields (pass_of h1) (pass_of h2) es

/-- C116 for HSI, HSL, HCY, LAB and LCH colours, with every rounding; the opacity of the second colour is left out whatever `include_alpha` says (C68). -/
theorem C116_through (t m : ColorType) (hm : Through t m) (a b : Color) (ha : IsColor t a) (hb : IsColor t b) (w1 : Fl) (h1 : Weight w1) (ia : Bool) (w : World)
    (hw : Cie t → w.Usable a.space ∧ w.Usable b.space) :
    ∃ a' b' s r, Converts w a m a' ∧ Converts w b m b' ∧ Yields (subOf m w1 false) w a' b' s ∧ Converts w s t r ∧ Yields (subOf t w1 ia) w a b r := by
  have ht : t ≠ .undefined := by cases hm <;> simp
  have hmd : middle t = m := by cases hm <;> rfl
  have hm0 : m ≠ .undefined := by cases hm <;> simp
  have hs : subAlpha t ia = false := by cases hm <;> rfl
  obtain ⟨a', b', s, r, ea, eb, es, cs, er, hf⟩ :=
    through_total (f := fun m => subVal m w1 false) ht (fun m hm hd a b ha hb => subVal_total hm hd w1 false ha hb) ha hb hw
  obtain ⟨r', er', hy, -⟩ := subOf_yields ht (pass_of h1) ia ha hb hw
  have hrr : r' = r := by
    simp only [throughVal, hs, ea, eb, es, er, ok_bind, ok_inj] at er'
    exact er'.symm
  rw [hmd] at ea eb es cs er
  refine ⟨a', b', s, r, (converts_iff ht hm0 ha).mpr ea, (converts_iff ht hm0 hb).mpr eb, ?_, (converts_iff hm0 ht cs).mpr er, hrr ▸ hy⟩
  have ho : subOf m w1 false = subOwn m w1 false := by cases hm <;> rfl
  rw [ho]
  exact subOwn_yields (pass_of h1) es

/-- C115 for two colours of any types: the second colour is converted to the type of the first, then the sum of that type is formed. -/
theorem C115_base (s t : ColorType) (hs : s ≠ .undefined) (ht : Addable t) (a b : Color) (ha : IsColor t a) (hb : IsColor s b) (w1 w2 : Fl) (h1 : Weight w1) (h2 : Weight w2) (ia : Bool)
    (w : World) (b' r : Color) (hc : Converts w b t b') (hr : Yields (addOf t w1 w2 ia) w a b' r) : Returns (add w1 w2 ia) w a b r := by
  intro h i j hw hi hj
  subst hw
  obtain ⟨q, h', e, l, n, -⟩ := dispatch hs ht.1 ha hb hi hj ((converts_iff hs ht.1 hb).mp hc) hr
  exact ⟨q, h', by rw [add_pass (pass_of h1) (pass_of h2) ia ht hi ha, e], l, n⟩

/-- C116 for two colours of any types. -/
theorem C116_base (s t : ColorType) (hs : s ≠ .undefined) (ht : Mixable t) (a b : Color) (ha : IsColor t a) (hb : IsColor s b) (w1 : Fl) (h1 : Weight w1) (hz : w1 ≠ 0) (ia : Bool)
    (w : World) (b' r : Color) (hc : Converts w b t b') (hr : Yields (subOf t w1 ia) w a b' r) : Returns (subtract w1 ia) w a b r := by
  intro h i j hw hi hj
  subst hw
  obtain ⟨q, h', e, l, n, -⟩ := dispatch hs ht.1 ha hb hi hj ((converts_iff hs ht.1 hb).mp hc) hr
  exact ⟨q, h', by rw [subtract_pass (positive_of h1 hz) ia ht hi ha, e], l, n⟩

/-- C115 for mixtures: the sum with the weights `w` and `1 - w`, for the functions of one type and the one for any types. -/
theorem C115_mix (s t : ColorType) (hs : s ≠ .undefined) (ht : t ≠ .undefined) (a b : Color) (ha : IsColor t a) (hb : IsColor s b) (w1 : Fl) (h1 : Weight w1) (ia : Bool) (w : World) (b' r : Color)
    (hc : Converts w b t b') (hr : Yields (addOf t w1 (1 - w1) ia) w a b' r) :
    Yields (mixOf t w1 ia) w a b' r ∧ (Mixable t → w1 ≠ 0 → Returns (mix w1 ia) w a b r) := by
  rw [← mixOf_pass (pass_of h1)] at hr
  refine ⟨hr, fun hm hz h i j hw hi hj => ?_⟩
  subst hw
  obtain ⟨q, h', e, l, n, -⟩ := dispatch hs ht ha hb hi hj ((converts_iff hs ht hb).mp hc) hr
  exact ⟨q, h', by rw [mix_pass (positive_of h1 hz) ia hm hi ha, e], l, n⟩

/-- HSL colours go through HSV without any colour space, LAB colours through XYZ with a preset colour space; an RGB colour can be added to either. -/
example [ExactModel] [StdSort] : (∃ a b : Color, Through .hsl .hsv ∧ IsColor .hsl a ∧ IsColor .hsl b ∧ a ≠ b ∧ ¬ Cie .hsl) ∧
    (∃ (w : World) (a b : Color), Through .lab .xyz ∧ IsColor .lab a ∧ IsColor .lab b ∧ a ≠ b ∧ w.Usable a.space ∧ w.Usable b.space) ∧ Addable .rgbDeep ∧ Mixable .rgbDeep ∧ Weight (fin 0.25) := by
  refine ⟨⟨obj .hsl 200 0.5 0.25 (fin 1) none, obj .hsl 100 0.5 0.25 (fin 1) none, .hsl, ⟨rfl, rfl, rfl, rfl, rfl⟩, ⟨rfl, rfl, rfl, rfl, rfl⟩, ?_, by simp [Cie]⟩, ?_, ?_⟩
  · intro h; simp [obj] at h
  · obtain ⟨w, hu, -⟩ := exists_world .sRGB .g2_2
    refine ⟨w, obj .lab 50 10 20 (fin 1) (some 0), obj .lab 60 10 20 (fin 1) (some 0), .lab, ⟨rfl, rfl, rfl, rfl, rfl⟩, ⟨rfl, rfl, rfl, rfl, rfl⟩, ?_, hu, hu⟩
    intro h; simp [obj] at h
  · exact ⟨by simp [Addable], by simp [Mixable], ⟨0.25, rfl, by norm_num, by norm_num⟩⟩

end
