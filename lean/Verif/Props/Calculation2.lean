import Verif.Props.Calculation
import Verif.Props.CieTrips

/-!
# Colour arithmetic without rounding: C64, C66, C67, C68

`Calc.Proper t c` says that `c` is a colour of class `t` as the constructors and channel setters leave it, with an alpha between 0 and 1; `Calc.chan c i` is the number in
channel `i` and `Calc.opac c` the opacity.
-/

open Outcome Fl Prog ObjectSpec ConvSpec BlendSpec CalcSpec Calc Hue

section
variable [FloatModel] [ExactModel]

/-! ## C64: mixing -/

namespace Calc

theorem chan_map (t : ColorType) (f : Nat → ℝ) {i : Nat} {n : Nat} (hi : i < n) (al mx mn : Fl) (sp : Option Nat) (k : ColorType) :
    chan ⟨k, t, (List.range n).map (fun i => fin (f i)), al, mx, mn, sp⟩ i = f i := by
  simp [chan, hi]

theorem mixed_proper {t : ColorType} {a b : Color} (ha : Proper t a) (hb : Proper t b) {w : ℝ} (h0 : 0 ≤ w) (h1 : w ≤ 1) (ia : Bool) : Proper t (mixed t w ia a b) := by
  refine ⟨⟨rfl, rfl, by simp [mixed], rfl, rfl⟩, ?_, ?_⟩
  · intro i hi
    have hi' : i < Color.count t := by simpa [mixed] using hi
    simpa [mixed] using mixed_range ha hb h0 h1 hi'
  · have hal := combR_between t (x := opac a) (y := opac b) h0 h1 (fun _ => ⟨ha.opac_range.1, hb.opac_range.1⟩)
    refine ⟨_, rfl, ?_⟩
    split
    · exact ⟨(le_min ha.opac_range.1 hb.opac_range.1).trans hal.1, hal.2.trans (max_le ha.opac_range.2 hb.opac_range.2)⟩
    · exact ha.opac_range

theorem one_sub_fin (w : ℝ) : (1 : Fl) - fin w = fin (1 - w) := by simp

/-- `mix` of two colours of one class is the overload. -/
theorem mix_same {t : ColorType} (ht : Mixable t) {w : Fl} (hw : Weight w) (hz : w ≠ 0) {ia : Bool} {wl : World} {a b r : Color} (ha : IsColor t a) (hb : IsColor t b)
    (hy : Yields (mixOf t w ia) wl a b r) : Yields (mix w ia) wl a b r := by
  intro h i j hwl hi hj
  subst hwl
  obtain ⟨q, h', e, l, n, f⟩ := dispatch ht.1 ht.1 ha hb hi hj (by simp [Val.to]) hy
  exact ⟨q, h', by rw [mix_pass (positive_of hw hz) ia ht hi ha]; exact e, l, n, f (by rintro ⟨rfl, hc⟩; simp [Cie] at hc)⟩

end Calc

/-- C64 for the eight types with Cartesian channels and an arithmetic of their own: every channel and the opacity of a mixture lies between those of the two colours, weight 1
gives the first colour, weight 0 the channels of the second, and mixing a colour with itself returns it.  The last line says the same of `mix` for `color_base`.
Missing: LAB, which is mixed in XYZ, see `C64_lab_violated`. -/
theorem C64_between_partial (t : ColorType) (ht : Flat t) (a b : Color) (ha : Proper t a) (hb : Proper t b) (w : ℝ) (h0 : 0 ≤ w) (h1 : w ≤ 1) (ia : Bool) (wl : World) :
    ∃ r, Yields (mixOf t (fin w) ia) wl a b r ∧ Proper t r ∧
      (∀ i < Color.count t, min (chan a i) (chan b i) ≤ chan r i ∧ chan r i ≤ max (chan a i) (chan b i)) ∧
      (min (opac a) (opac b) ≤ opac r ∧ opac r ≤ max (opac a) (opac b)) ∧
      (w = 1 → r = a) ∧ (w = 0 → r.comps = b.comps) ∧ (a = b → r = a) ∧
      (Mixable t → w ≠ 0 → Yields (mix (fin w) ia) wl a b r) := by
  have hW : Weight (fin w) := ⟨w, rfl, h0, h1⟩
  have hW' : Weight (fin (1 - w)) := ⟨1 - w, rfl, by linarith, by linarith⟩
  have hm : middle t = t := by rcases ht with rfl | rfl | rfl | rfl | rfl | rfl | rfl | rfl <;> rfl
  have ho : addOf t (fin w) (fin (1 - w)) ia = addOwn t (fin w) (fin (1 - w)) ia := by cases t <;> first | rfl | simp [middle] at hm
  have hy : Yields (mixOf t (fin w) ia) wl a b (mixed t w ia a b) := by
    rw [mixOf_pass (pass_of hW), one_sub_fin, ho]
    exact addOwn_yields (pass_of hW) (pass_of hW') (addVal_mixed ht ha hb h0 h1 ia)
  have hop : opac (mixed t w ia a b) = if ia then combR t w (opac a) (opac b) else opac a := by simp [opac, mixed]
  refine ⟨mixed t w ia a b, hy, mixed_proper ha hb h0 h1 ia, fun i hi => ?_, ?_, ?_, ?_, ?_, fun hmx hz => mix_same hmx hW (by simpa using hz) ha.col hb.col hy⟩
  · rw [mixed, chan_map _ _ hi]
    exact combR_between t h0 h1 (fun ht => ⟨nonneg_rgb ha hi ht, nonneg_rgb hb hi ht⟩)
  · rw [hop]
    split
    · exact combR_between t h0 h1 (fun _ => ⟨ha.opac_range.1, hb.opac_range.1⟩)
    · exact ⟨min_le_left _ _, le_max_left _ _⟩
  · rintro rfl
    conv_rhs => rw [ha.eta]
    simp only [mixed, Color.mk.injEq, true_and, and_true]
    refine ⟨List.map_congr_left fun i hi => ?_, ?_⟩
    · rw [combR_one t _ (nonneg_rgb ha (by simpa using hi))]
    · rw [combR_one t _ (fun _ => ha.opac_range.1)]; simp
  · rintro rfl
    rw [hb.comps]
    simp only [mixed]
    refine List.map_congr_left fun i hi => ?_
    rw [combR_zero t _ (nonneg_rgb hb (by simpa using hi))]
  · rintro rfl
    conv_rhs => rw [ha.eta]
    simp only [mixed, Color.mk.injEq, true_and, and_true]
    refine ⟨List.map_congr_left fun i hi => ?_, ?_⟩
    · rw [combR_self t _ (nonneg_rgb ha (by simpa using hi))]
    · rw [combR_self t _ (fun _ => ha.opac_range.1)]; simp

/-- Two XYZ colours meet the hypotheses. -/
example : Proper .xyz ⟨.xyz, .xyz, [fin 20, fin 30, fin 40], fin 1, 100, 0, none⟩ ∧ Proper .rgbTrue ⟨.rgbTrue, .rgbTrue, [fin 20, fin 255, fin 0], fin 0.5, 255, 0, none⟩ ∧ Flat .xyz ∧ Flat .rgbTrue := by
  refine ⟨⟨⟨rfl, rfl, rfl, rfl, rfl⟩, ?_, ⟨1, rfl, by norm_num, by norm_num⟩⟩, ⟨⟨rfl, rfl, rfl, rfl, rfl⟩, ?_, ⟨0.5, rfl, by norm_num, by norm_num⟩⟩, by simp [Flat], by simp [Flat]⟩
  all_goals
    intro i hi
    match i, hi with
    | 0, _ => exact ⟨_, rfl, by norm_num [setterRange, channelRange], by norm_num [setterRange, channelRange]⟩
    | 1, _ => exact ⟨_, rfl, by norm_num [setterRange, channelRange], by norm_num [setterRange, channelRange]⟩
    | 2, _ => exact ⟨_, rfl, by norm_num [setterRange, channelRange], by norm_num [setterRange, channelRange]⟩

namespace Calc

omit [FloatModel] [ExactModel] in
theorem labF_cube {x : ℝ} (h : 6 / 29 < x) : labF (x ^ 3) = x := by
  have h3 : (6 / 29 : ℝ) ^ 3 < x ^ 3 := pow_lt_pow_left₀ h (by norm_num) (by norm_num)
  unfold labF
  rw [if_pos h3, ← Real.rpow_natCast, ← Real.rpow_mul (by linarith)]
  norm_num

theorem clamp128 {v : ℝ} (hv : |v| ≤ 128) : Color.clamp (fin v) 128 (-128) = fin v := by
  rw [abs_le] at hv
  have : (-128 : Fl) = fin (-128) := by simp
  rw [this]
  simp [Color.clamp_fin, hv.1, hv.2]

/-- XYZ to LAB. -/
theorem xyz_to_lab_exact {w : World} {sp : Option Nat} {wx wy wz : ℝ} (hw : HasWhite w sp wx wy wz) (px : 0 < wx) (py : 0 < wy) (pz : 0 < wz) {x y z a : ℝ}
    (x0 : 0 ≤ x) (y0 : 0 ≤ y) (z0 : 0 ≤ z) (a0 : 0 ≤ a) (a1 : a ≤ 1)
    (hL : 116 * labF (y / wy) - 16 ≤ 100) (hA : |500 * (labF (x / wx) - labF (y / wy))| ≤ 128) (hB : |200 * (labF (y / wy) - labF (z / wz))| ≤ 128) :
    Leaf.xyz_to_lab w (obj .xyz x y z (fin a) sp) =
      ok (obj .lab (116 * labF (y / wy) - 16) (500 * (labF (x / wx) - labF (y / wy))) (200 * (labF (y / wy) - labF (z / wz))) (fin a) sp) := by
  obtain ⟨s, q, hs, hq, ht⟩ := hw
  have X0 : 0 ≤ x / wx := by positivity
  have Y0 : 0 ≤ y / wy := by positivity
  have Z0 : 0 ≤ z / wz := by positivity
  have hal : Color.clamp (fin a) 1 0 = fin a := clamp01 a0 a1
  have hL0 : 0 ≤ 116 * labF (y / wy) - 16 := by rcases labF_cases Y0 with hh | hh <;> linarith [hh.1]
  have cl : Color.clamp (fin (116 * labF (y / wy) - 16)) 100 0 = fin (116 * labF (y / wy) - 16) := clamp100 hL0 hL
  simp only [Leaf.xyz_to_lab, obj_0, obj_1, obj_2, obj_space, obj_alpha _ _ _ _ _ _ (rfl : Color.scalesAlpha .xyz = false), ok_bind, hs, World.space, World.white, hq, ht,
    Color.construct_lab]
  rw [div_exact _ _ px.ne', div_exact _ _ py.ne', div_exact _ _ pz.ne', xyzToLab_eq X0, xyzToLab_eq Y0, xyzToLab_eq Z0]
  simp only [lit_def, mul_exact, sub_exact, Color.mkLab, Color.setAlpha, Color.scalesAlpha, Bool.false_eq_true, if_false, hal]
  have e1 := clamp128 hA
  have e2 := clamp128 hB
  simp only [lit_def] at cl e1 e2
  rw [cl, e1, e2]
  simp [obj, Color.maxOf, Color.minOf]

/-- LAB to XYZ, for LAB values that belong to tristimulus values `x`, `y`, `z` relative to the white point. -/
theorem lab_to_xyz_exact {w : World} {sp : Option Nat} {wx wy wz : ℝ} (hw : HasWhite w sp wx wy wz) {x y z a : ℝ}
    (x0 : 0 ≤ x) (y0 : 0 ≤ y) (z0 : 0 ≤ z) (a0 : 0 ≤ a) (a1 : a ≤ 1) (hx : 0 ≤ x * wx ∧ x * wx ≤ 100) (hy : 0 ≤ y * wy ∧ y * wy ≤ 100) (hz : 0 ≤ z * wz ∧ z * wz ≤ 100) :
    Leaf.lab_to_xyz w (obj .lab (116 * labF y - 16) (500 * (labF x - labF y)) (200 * (labF y - labF z)) (fin a) sp) = ok (obj .xyz (x * wx) (y * wy) (z * wz) (fin a) sp) := by
  obtain ⟨s, q, hs, hq, ht⟩ := hw
  have hal : Color.clamp (fin a) 1 0 = fin a := clamp01 a0 a1
  simp only [Leaf.lab_to_xyz, obj_0, obj_1, obj_2, obj_space, obj_alpha _ _ _ _ _ _ (rfl : Color.scalesAlpha .lab = false), ok_bind, hs, World.space, World.white, hq, ht,
    Color.construct_xyz, labToY_eq y0]
  simp only [lit_def, add_exact]
  rw [div_exact _ 116 (by norm_num), div_exact _ 500 (by norm_num), div_exact _ 200 (by norm_num)]
  simp only [add_exact, sub_exact]
  rw [show 500 * (labF x - labF y) / 500 + (116 * labF y - 16 + 16) / 116 = labF x by ring,
    show (116 * labF y - 16 + 16) / 116 - 200 * (labF y - labF z) / 200 = labF z by ring, labToXZ_eq x0, labToXZ_eq z0]
  simp only [mul_exact]
  rw [mkXyz_obj _ ⟨rfl, rfl⟩ _ _ hx.1 hx.2 hy.1 hy.2 hz.1 hz.2]
  simp only [Color.setAlpha, obj, Color.scalesAlpha, Bool.false_eq_true, if_false, hal]

theorem obj_xyz_proper {x y z a : ℝ} {sp : Option Nat} (hx : 0 ≤ x ∧ x ≤ 100) (hy : 0 ≤ y ∧ y ≤ 100) (hz : 0 ≤ z ∧ z ≤ 100) (ha : 0 ≤ a ∧ a ≤ 1) : Proper .xyz (obj .xyz x y z (fin a) sp) := by
  refine ⟨⟨rfl, rfl, rfl, rfl, rfl⟩, fun i hi => ?_, ⟨a, rfl, ha⟩⟩
  match i, hi with
  | 0, _ => exact ⟨x, rfl, hx⟩
  | 1, _ => exact ⟨y, rfl, hy⟩
  | 2, _ => exact ⟨z, rfl, hz⟩

end Calc

/-- Two LAB colours of different lightness with the same a*: the a* of the mixture is smaller.  (`add` of LAB colours goes through XYZ.) -/
theorem C64_lab_violated (w : World) (sp : Option Nat) (wx wy wz : ℝ) (hw : HasWhite w sp wx wy wz) (px : 0 < wx) (py : 0 < wy) (pz : 0 < wz) (qx : wx ≤ 100) (qy : wy ≤ 100) (qz : wz ≤ 100) :
    ∃ a b r, Proper .lab a ∧ Proper .lab b ∧ Yields (mixOf .lab (fin (1 / 2)) false) w a b r ∧ chan a 1 = 50 ∧ chan b 1 = 50 ∧ chan r 1 < 50 := by
  have f1 : labF (1 / 8) = 1 / 2 := by have := labF_cube (x := 1 / 2) (by norm_num); norm_num at this ⊢; exact this
  have f2 : labF (8 / 125) = 2 / 5 := by have := labF_cube (x := 2 / 5) (by norm_num); norm_num at this ⊢; exact this
  have f3 : labF (729 / 1000) = 9 / 10 := by have := labF_cube (x := 9 / 10) (by norm_num); norm_num at this ⊢; exact this
  have f4 : labF (64 / 125) = 4 / 5 := by have := labF_cube (x := 4 / 5) (by norm_num); norm_num at this ⊢; exact this
  -- the two cube roots of the mixture
  have g1 : labF (427 / 1000) < 754 / 1000 ∧ 7 / 10 < labF (427 / 1000) := by
    rcases labF_cases (t := 427 / 1000) (by norm_num) with ⟨h1, h2, -⟩ | ⟨-, h1, h2⟩
    · constructor
      · by_contra hn
        push Not at hn
        have := pow_le_pow_left₀ (by norm_num) hn 3
        rw [h2] at this
        norm_num at this
      · by_contra hn
        push Not at hn
        have := pow_le_pow_left₀ (by linarith) hn 3
        rw [h2] at this
        norm_num at this
    · rw [h2] at h1; norm_num at h1
  have g2 : 66 / 100 < labF (288 / 1000) ∧ labF (288 / 1000) < 7 / 10 := by
    rcases labF_cases (t := 288 / 1000) (by norm_num) with ⟨h1, h2, -⟩ | ⟨-, h1, h2⟩
    · constructor
      · by_contra hn
        push Not at hn
        have := pow_le_pow_left₀ (by linarith) hn 3
        rw [h2] at this
        norm_num at this
      · by_contra hn
        push Not at hn
        have := pow_le_pow_left₀ (by norm_num) hn 3
        rw [h2] at this
        norm_num at this
    · rw [h2] at h1; norm_num at h1
  have rng : ∀ k v : ℝ, 0 ≤ k → k ≤ 1 → 0 < v → v ≤ 100 → 0 ≤ k * v ∧ k * v ≤ 100 := fun k v h0 h1 h2 h3 => ⟨by positivity, by nlinarith⟩
  have ea : Val.to .lab .xyz w (obj .lab (152 / 5) 50 0 (fin 1) sp) = ok (obj .xyz (1 / 8 * wx) (8 / 125 * wy) (8 / 125 * wz) (fin 1) sp) := by
    rw [Val.to, if_neg (by simp)]
    have := lab_to_xyz_exact hw (x := 1 / 8) (y := 8 / 125) (z := 8 / 125) (a := 1) (by norm_num) (by norm_num) (by norm_num) (by norm_num) (by norm_num)
      (rng _ _ (by norm_num) (by norm_num) px qx) (rng _ _ (by norm_num) (by norm_num) py qy) (rng _ _ (by norm_num) (by norm_num) pz qz)
    rw [f1, f2] at this
    norm_num at this
    exact this
  have eb : Val.to .lab .xyz w (obj .lab (384 / 5) 50 0 (fin 1) sp) = ok (obj .xyz (729 / 1000 * wx) (64 / 125 * wy) (64 / 125 * wz) (fin 1) sp) := by
    rw [Val.to, if_neg (by simp)]
    have := lab_to_xyz_exact hw (x := 729 / 1000) (y := 64 / 125) (z := 64 / 125) (a := 1) (by norm_num) (by norm_num) (by norm_num) (by norm_num) (by norm_num)
      (rng _ _ (by norm_num) (by norm_num) px qx) (rng _ _ (by norm_num) (by norm_num) py qy) (rng _ _ (by norm_num) (by norm_num) pz qz)
    rw [f3, f4] at this
    norm_num at this
    exact this
  have em := addVal_mixed (t := .xyz) (by simp [Flat]) (a := obj .xyz (1 / 8 * wx) (8 / 125 * wy) (8 / 125 * wz) (fin 1) sp) (b := obj .xyz (729 / 1000 * wx) (64 / 125 * wy) (64 / 125 * wz) (fin 1) sp)
    (obj_xyz_proper (rng _ _ (by norm_num) (by norm_num) px qx) (rng _ _ (by norm_num) (by norm_num) py qy) (rng _ _ (by norm_num) (by norm_num) pz qz) (by norm_num))
    (obj_xyz_proper (rng _ _ (by norm_num) (by norm_num) px qx) (rng _ _ (by norm_num) (by norm_num) py qy) (rng _ _ (by norm_num) (by norm_num) pz qz) (by norm_num))
    (w := 1 / 2) (by norm_num) (by norm_num) false
  have emx : mixed .xyz (1 / 2) false (obj .xyz (1 / 8 * wx) (8 / 125 * wy) (8 / 125 * wz) (fin 1) sp) (obj .xyz (729 / 1000 * wx) (64 / 125 * wy) (64 / 125 * wz) (fin 1) sp) =
      obj .xyz (427 / 1000 * wx) (288 / 1000 * wy) (288 / 1000 * wz) (fin 1) sp := by
    have r3 : List.range 3 = [0, 1, 2] := rfl
    simp only [mixed, Color.count, r3, List.map_cons, List.map_nil, chan, obj, opac, List.getElem?_cons_zero, List.getElem?_cons_succ, combR, reduceCtorEq, or_self, if_false, Bool.false_eq_true]
    simp only [Color.mk.injEq, List.cons.injEq, fin_inj, and_true, true_and]
    refine ⟨by ring, by ring, by ring⟩
  rw [emx] at em
  have er : Val.to .xyz .lab w (obj .xyz (427 / 1000 * wx) (288 / 1000 * wy) (288 / 1000 * wz) (fin 1) sp) =
      ok (obj .lab (116 * labF (288 / 1000) - 16) (500 * (labF (427 / 1000) - labF (288 / 1000))) 0 (fin 1) sp) := by
    rw [Val.to, if_neg (by simp)]
    have d1 : 427 / 1000 * wx / wx = 427 / 1000 := by field_simp
    have d2 : 288 / 1000 * wy / wy = 288 / 1000 := by field_simp
    have d3 : 288 / 1000 * wz / wz = 288 / 1000 := by field_simp
    have := xyz_to_lab_exact hw px py pz (x := 427 / 1000 * wx) (y := 288 / 1000 * wy) (z := 288 / 1000 * wz) (a := 1) (by positivity) (by positivity) (by positivity) (by norm_num) (by norm_num)
      (by rw [d2]; linarith [g2.2]) (by rw [d1, d2, abs_le]; constructor <;> linarith [g1.1, g1.2, g2.1, g2.2]) (by rw [d2, d3]; norm_num)
    rw [d1, d2, d3] at this
    rw [show (200 : ℝ) * (labF (288 / 1000) - labF (288 / 1000)) = 0 by ring] at this
    exact this
  have plab : ∀ l : ℝ, 0 ≤ l → l ≤ 100 → Proper .lab (obj .lab l 50 0 (fin 1) sp) := by
    intro l h0 h1
    refine ⟨⟨rfl, rfl, rfl, rfl, rfl⟩, fun i hi => ?_, ⟨1, rfl, by norm_num, le_rfl⟩⟩
    match i, hi with
    | 0, _ => exact ⟨l, rfl, h0, h1⟩
    | 1, _ => exact ⟨50, rfl, by norm_num [setterRange, channelRange], by norm_num [setterRange, channelRange]⟩
    | 2, _ => exact ⟨0, rfl, by norm_num [setterRange, channelRange], by norm_num [setterRange, channelRange]⟩
  have p1 : Pass (fin (1 / 2)) := pass_of ⟨1 / 2, rfl, by norm_num, by norm_num⟩
  have p2 : Pass (fin (1 - 1 / 2)) := pass_of ⟨1 - 1 / 2, rfl, by norm_num, by norm_num⟩
  refine ⟨_, _, obj .lab (116 * labF (288 / 1000) - 16) (500 * (labF (427 / 1000) - labF (288 / 1000))) 0 (fin 1) sp, plab (152 / 5) (by norm_num) (by norm_num),
    plab (384 / 5) (by norm_num) (by norm_num), ?_, rfl, rfl, ?_⟩
  · rw [mixOf_pass p1, one_sub_fin]
    have : addOf .lab (fin (1 / 2)) (fin (1 - 1 / 2)) false = via (Conv.dispatcher .xyz) (Conv.dispatcher .lab) (addOwn .xyz (fin (1 / 2)) (fin (1 - 1 / 2)) false) := by
      funext p q
      simp only [addOf, checked_pass p1, checked_pass p2]
      rfl
    rw [this]
    exact via_yields (by simp) (by simp) (by simp) (plab _ (by norm_num) (by norm_num)).col (plab _ (by norm_num) (by norm_num)).col ea eb (addOwn_yields p1 p2 em) ⟨rfl, rfl, rfl, rfl, rfl⟩ er
  · show 500 * (labF (427 / 1000) - labF (288 / 1000)) < 50
    linarith [g1.1, g2.1]

example [StdSort] : ∃ (w : World) (wx wy wz : ℝ), HasWhite w (some 0) wx wy wz ∧ 0 < wx ∧ 0 < wy ∧ 0 < wz ∧ wx ≤ 100 ∧ wy ≤ 100 ∧ wz ≤ 100 := by
  obtain ⟨w, -, -, hw, hq, -⟩ := exists_world .sRGB .g2_2
  refine ⟨w, 0.9504, 1, 1.0888, ⟨0, 0, rfl, hw, ?_⟩, by norm_num, by norm_num, by norm_num, by norm_num, by norm_num, by norm_num⟩
  rw [hq]; simp [WhitePreset.create, WhitePoint.make, SpacePreset.white, WhitePreset.literals]

end

/-! ### HSV -/

section
variable [FloatModel] [ExactModel]

namespace Calc

/-- The vector of an HSV colour goes back to its hue and saturation. -/
theorem from_to_vector {h s v : ℝ} (h0 : 0 ≤ h) (h1 : h ≤ 359) (s0 : 0 < s) :
    ∃ x : ℝ, fromVector (toVector (fin h) (fin s) (fin v)) = [fin x, fin s, fin v] ∧ Color.hueReduce (fin x) = fin h := by
  have hpi := Real.pi_pos
  set θ := h / 180 * Real.pi with hθ
  have ev : toVector (fin h) (fin s) (fin v) = (fin (Real.cos θ * s), fin (Real.sin θ * s), fin v) := by
    simp only [toVector, lit_def, lit_exact]
    rw [div_exact _ _ (by norm_num)]
    simp only [mul_exact, ExactModel.sinf_eq, ExactModel.cosf_eq, hθ]
  have p : ∀ x : ℝ, powf (fin x) 2 = fin (x ^ 2) := by
    intro x
    rw [lit_def, ExactModel.powf_eq x 2 (Or.inr (Or.inr ⟨2, by norm_num⟩))]
    norm_cast
  have hs : Real.sqrt ((Real.cos θ * s) ^ 2 + (Real.sin θ * s) ^ 2) = s := by
    rw [show (Real.cos θ * s) ^ 2 + (Real.sin θ * s) ^ 2 = (Real.sin θ ^ 2 + Real.cos θ ^ 2) * s ^ 2 by ring, Real.sin_sq_add_cos_sq, one_mul, Real.sqrt_sq s0.le]
  have ha : ∀ φ : ℝ, Real.cos φ = Real.cos θ → Real.sin φ = Real.sin θ → φ ∈ Set.Ioc (-Real.pi) Real.pi → Complex.arg ⟨Real.cos θ * s, Real.sin θ * s⟩ = φ := by
    intro φ hc hsn hm
    have := Complex.arg_mul_cos_add_sin_mul_I s0 hm
    rw [← this]
    congr 1
    rw [← hc, ← hsn]
    apply Complex.ext
    · simp [← Complex.ofReal_cos, ← Complex.ofReal_sin]; ring
    · simp [← Complex.ofReal_cos, ← Complex.ofReal_sin]; ring
  have hd : ∀ k : ℝ, fin k * 180 / lit Real.pi = fin (k * 180 / Real.pi) := by
    intro k
    rw [lit_exact, lit_def, mul_exact, div_exact _ _ hpi.ne']
  have hq : sqrt (powf (fin (Real.cos θ * s)) 2 + powf (fin (Real.sin θ * s)) 2) = fin s := by
    rw [p, p, add_exact, sqrt_exact _ (by positivity), hs]
  refine ⟨Complex.arg ⟨Real.cos θ * s, Real.sin θ * s⟩ * 180 / Real.pi, ?_, ?_⟩
  · rw [ev]
    simp only [fromVector, ExactModel.atan2f_eq, hd, hq]
  · by_cases hh : h ≤ 180
    · rw [ha θ rfl rfl ⟨by have : 0 ≤ θ := by positivity
                           linarith, by rw [hθ]; nlinarith⟩]
      rw [show θ * 180 / Real.pi = h by rw [hθ]; field_simp]
      exact Color.hueReduce_id h0 (by linarith)
    · push Not at hh
      rw [ha (θ - 2 * Real.pi) (Real.cos_sub_two_pi θ) (Real.sin_sub_two_pi θ) ⟨by rw [hθ]; nlinarith, by rw [hθ]; nlinarith⟩]
      rw [show (θ - 2 * Real.pi) * 180 / Real.pi = h - 360 by rw [hθ]; field_simp; ring]
      rw [Color.hueReduce_fin _ (by simp)]
      congr 1
      rw [show (h - 360) / 360 = h / 360 - 1 by ring, Int.fract_sub_one]
      exact Color.fract_small h0 (by linarith)

end Calc

/-- Mixing a saturated HSV colour with itself returns it, for every weight. -/
theorem C64_hsv_self (c : Color) (hc : Proper .hsv c) (hs : 0 < chan c 1) (w : ℝ) (h0 : 0 ≤ w) (h1 : w ≤ 1) (ia : Bool) (wl : World) : Yields (mixOf .hsv (fin w) ia) wl c c c := by
  have hW : Weight (fin w) := ⟨w, rfl, h0, h1⟩
  have hW' : Weight (fin (1 - w)) := ⟨1 - w, rfl, by linarith, by linarith⟩
  rw [mixOf_pass (pass_of hW), one_sub_fin]
  refine addOwn_yields (pass_of hW) (pass_of hW') ?_
  have r0 := hc.chan_range (i := 0) (by simp [Color.count])
  have r1 := hc.chan_range (i := 1) (by simp [Color.count])
  have r2 := hc.chan_range (i := 2) (by simp [Color.count])
  simp only [setterRange, channelRange] at r0 r1 r2
  have he : c = obj .hsv (chan c 0) (chan c 1) (chan c 2) (fin (opac c)) c.space := by
    conv_lhs => rw [hc.eta]
    have r3 : List.range (Color.count .hsv) = [0, 1, 2] := rfl
    rw [r3]
    rfl
  have hlin : ∀ x, linear (fin w) (fin (1 - w)) (fin x) (fin x) = fin x := by
    intro x; rw [linear_exact]; congr 1; ring
  have hal : alphaOf (linear (fin w) (fin (1 - w))) ia c c = fin (opac c) := by
    simp only [alphaOf, hc.alpha_eq, Color.scalesAlpha, Bool.false_eq_true, if_false, hlin, ite_self]
  obtain ⟨x, ex, hx⟩ := from_to_vector (h := chan c 0) (s := chan c 1) (v := chan c 2) r0.1 r0.2 hs
  have hv : ∀ y z u : ℝ, (linear (fin w) (fin (1 - w)) (toVector (fin y) (fin z) (fin u)).1 (toVector (fin y) (fin z) (fin u)).1,
      linear (fin w) (fin (1 - w)) (toVector (fin y) (fin z) (fin u)).2.1 (toVector (fin y) (fin z) (fin u)).2.1,
      linear (fin w) (fin (1 - w)) (toVector (fin y) (fin z) (fin u)).2.2 (toVector (fin y) (fin z) (fin u)).2.2) = toVector (fin y) (fin z) (fin u) := by
    intro y z u
    simp only [toVector, lit_def, lit_exact]
    rw [div_exact _ _ (by norm_num)]
    simp only [mul_exact, ExactModel.sinf_eq, ExactModel.cosf_eq, hlin]
  simp only [addVal, hal]
  have g0 : c.getComponent 0 = ok (fin (chan c 0)) := by rw [he]; rfl
  have g1 : c.getComponent 1 = ok (fin (chan c 1)) := by rw [he]; rfl
  have g2 : c.getComponent 2 = ok (fin (chan c 2)) := by rw [he]; rfl
  simp only [g0, g1, g2, ok_bind, hv, ex, Color.construct_hsv, Color.mkHue, hx]
  have k0 : Color.clamp (fin (chan c 0)) 359 0 = fin (chan c 0) := by simp [Color.clamp_fin, r0.1, r0.2]
  rw [k0, clamp01 r1.1 r1.2, clamp01 r2.1 r2.2]
  conv_rhs => rw [he]
  simp [obj, Color.maxOf, Color.minOf]

example : Proper .hsv (obj .hsv 200 0.5 0.25 (fin 1) none) ∧ 0 < chan (obj .hsv 200 0.5 0.25 (fin 1) none) 1 := by
  refine ⟨⟨⟨rfl, rfl, rfl, rfl, rfl⟩, fun i hi => ?_, ⟨1, rfl, by norm_num, le_rfl⟩⟩, ?_⟩
  · match i, hi with
    | 0, _ => exact ⟨200, rfl, show (0 : ℝ) ≤ 200 by norm_num, show (200 : ℝ) ≤ 359 by norm_num⟩
    | 1, _ => exact ⟨0.5, rfl, show (0 : ℝ) ≤ 0.5 by norm_num, show (0.5 : ℝ) ≤ 1 by norm_num⟩
    | 2, _ => exact ⟨0.25, rfl, show (0 : ℝ) ≤ 0.25 by norm_num, show (0.25 : ℝ) ≤ 1 by norm_num⟩
  · show (0 : ℝ) < 0.5
    norm_num

/-! ## C66 and C67: averages -/

/-- Called with pointers to the colours `cs`, wherever these are stored, the average function of class `t` returns a pointer to a new object, which is `r`, and changes nothing. -/
def CalcSpec.Averages (t : ColorType) (ia : Bool) (cs : List Color) (r : Color) : Prop :=
  ∀ (h : Heap) (ps : List Ptr), Refs h ps cs → ∃ q h', average t ia ps h = (ok (some q), h') ∧ h'.colors[q]? = some r ∧ h.colors.length ≤ q ∧ Frame h h'

namespace Calc

omit [ExactModel] in
theorem averages_of {t : ColorType} {ia : Bool} {cs : List Color} (hn : cs ≠ []) {r : Color} (e : averageVal t ia cs = ok r) : Averages t ia cs r := by
  intro h ps hr
  refine ⟨h.colors.length, ⟨h.world, h.colors ++ [r]⟩, ?_, by simp, le_refl _, Frame.alloc h r⟩
  have hp : ps ≠ [] := by
    rintro rfl
    cases hr
    exact hn rfl
  rw [average, if_neg hp]
  simp only [Prog.bind_def, loadAll_refs hr, lift, e, Prog.alloc]

/-- The mean of channel `i`. -/
noncomputable def mean (cs : List Color) (i : Nat) : ℝ := total cs i / cs.length

/-- What an average is, except for the alpha of CMYK averages. -/
theorem average_value {t : ColorType} (ht : t ≠ .undefined) (ia : Bool) {first : Color} {rest : List Color} (h : ∀ c ∈ first :: rest, Proper t c) :
    ∃ al, averageVal t ia (first :: rest) = ok ⟨t, t, (List.range (Color.count t)).map (fun i => fin (mean (first :: rest) i)), al, Color.maxOf t, Color.minOf t, first.space⟩ ∧
      (t ≠ .cmyk ∨ ia = false → al = fin (if ia then opacity (first :: rest) / (first :: rest).length else opac first)) := by
  obtain ⟨al, e, ev⟩ := averageVal_exact ht ia h
  refine ⟨_, ev, fun hc => ?_⟩
  have hz : List.replicate (Color.count t) (0 : Fl) = (List.range (Color.count t)).map (fun _ => fin 0) := by
    simp [List.map_const']
  have hn : ((first :: rest).length : ℝ) ≠ 0 := by
    have : (0 : ℝ) < (first :: rest).length := by exact_mod_cast List.length_pos_iff.mpr (by simp)
    exact this.ne'
  have hf := h first (by simp)
  have lim : ∀ v : ℝ, 0 ≤ v → v ≤ 1 → Color.clamp (fin (v * 255) / 255) 1 0 = fin v := by
    intro v h0 h1
    rw [lit_def, div_exact _ _ (by norm_num), show v * 255 / 255 = v by ring]
    exact Conv.clamp_unit h0 h1
  rw [hz] at e
  cases ia
  · have := loop_first first (first :: rest) h (by simp) (fun _ => 0) 0
    rw [e] at this
    simp only [ok_inj, Prod.mk.injEq] at this
    rw [this.2, hf.alpha_eq]
    simp only [Bool.false_eq_true, if_false]
    split
    · exact lim _ hf.opac_range.1 hf.opac_range.2
    · rfl
  · have := loop_mean (hc.resolve_right (by simp)) first (first :: rest) h (fun _ => 0) 0
    rw [zero_def] at e
    rw [e] at this
    simp only [ok_inj, Prod.mk.injEq] at this
    have hm := mean_between (cs := first :: rest) (by simp) opac (fun c hc => (h c hc).opac_range)
    rw [this.2]
    simp only [if_true, zero_add]
    rw [div_exact _ _ hn]
    split
    · rw [show opacity (first :: rest) * 255 / ((first :: rest).length : ℝ) = opacity (first :: rest) / ((first :: rest).length : ℝ) * 255 by ring]
      exact lim _ hm.1 hm.2
    · rw [mul_one]

end Calc

/-- C66: the average of no colours is rejected, for every rounding. -/
theorem C66_empty (t : ColorType) (ia : Bool) (h : Heap) : Rejects (average t ia []) h := by
  rw [average, if_pos rfl]
  exact rejects_throw h

/-- C66, all fifteen types and lists of any length: every channel of the average is the arithmetic mean of that channel and lies between any bounds that hold for the colours. -/
theorem C66_between (t : ColorType) (ht : t ≠ .undefined) (ia : Bool) (cs : List Color) (hn : cs ≠ []) (hp : ∀ c ∈ cs, Proper t c) :
    ∃ r, Averages t ia cs r ∧ IsColor t r ∧ r.space = (cs.head hn).space ∧ ∀ i < Color.count t,
      r.comps[i]? = some (fin ((cs.map (chan · i)).sum / cs.length)) ∧ chan r i = (cs.map (chan · i)).sum / cs.length ∧
      ∀ lo hi, (∀ c ∈ cs, lo ≤ chan c i ∧ chan c i ≤ hi) → lo ≤ chan r i ∧ chan r i ≤ hi := by
  obtain ⟨first, rest, rfl⟩ := List.exists_cons_of_ne_nil hn
  obtain ⟨al, e, -⟩ := average_value ht ia hp
  refine ⟨_, averages_of hn e, ⟨rfl, rfl, by simp, rfl, rfl⟩, rfl, fun i hi => ?_⟩
  have hv : chan ⟨t, t, (List.range (Color.count t)).map (fun i => fin (mean (first :: rest) i)), al, Color.maxOf t, Color.minOf t, first.space⟩ i = mean (first :: rest) i := chan_map _ _ hi _ _ _ _ _
  refine ⟨by simp [hi, mean, total], hv, fun lo hi' hb => ?_⟩
  rw [hv]
  exact mean_between hn _ hb

/-- C66: the average of copies of one colour is that colour.  With alpha included this excludes CMYK, see `C67_violated`; its channels are right all the same, see `C66_between`. -/
theorem C66_copies (t : ColorType) (ht : t ≠ .undefined) (ia : Bool) (hc : t ≠ .cmyk ∨ ia = false) (n : Nat) (c : Color) (hp : Proper t c) : Averages t ia (List.replicate (n + 1) c) c := by
  have hall : ∀ d ∈ List.replicate (n + 1) c, Proper t d := fun d hd => by rw [List.eq_of_mem_replicate hd]; exact hp
  have hr : List.replicate (n + 1) c = c :: List.replicate n c := rfl
  rw [hr] at hall ⊢
  obtain ⟨al, e, hal⟩ := average_value ht ia hall
  have hn : ((n : ℝ) + 1) ≠ 0 := by positivity
  have hm : ∀ i, mean (c :: List.replicate n c) i = chan c i := by
    intro i
    simp only [mean, total, List.map_cons, List.map_replicate, List.sum_cons, List.sum_replicate, nsmul_eq_mul, List.length_cons, List.length_replicate, Nat.cast_add, Nat.cast_one]
    field_simp
    ring
  have ho : opacity (c :: List.replicate n c) / ((c :: List.replicate n c).length : ℝ) = opac c := by
    simp only [opacity, List.map_cons, List.map_replicate, List.sum_cons, List.sum_replicate, nsmul_eq_mul, List.length_cons, List.length_replicate, Nat.cast_add, Nat.cast_one]
    field_simp
    ring
  have : averageVal t ia (c :: List.replicate n c) = ok c := by
    rw [e, hal hc]
    conv_rhs => rw [hp.eta]
    simp only [hm, ho, ite_self]
  exact averages_of (by simp) this

/-- C66: the order of the list does not matter for the channels; with alpha included and one space it does not matter for the whole colour (CMYK aside). -/
theorem C66_order (t : ColorType) (ht : t ≠ .undefined) (ia : Bool) (cs cs' : List Color) (hperm : cs.Perm cs') (hn : cs ≠ []) (hp : ∀ c ∈ cs, Proper t c) :
    ∃ r r', Averages t ia cs r ∧ Averages t ia cs' r' ∧ r.comps = r'.comps ∧
      (t ≠ .cmyk → ia = true → (∀ c ∈ cs, ∀ d ∈ cs, c.space = d.space) → r = r') := by
  have hn' : cs' ≠ [] := fun hh => hn (by rw [hh] at hperm; exact hperm.eq_nil)
  have hp' : ∀ c ∈ cs', Proper t c := fun c hc => hp c (hperm.mem_iff.mpr hc)
  have hm : ∀ i, mean cs i = mean cs' i := by
    intro i
    simp only [mean, total, (hperm.map (chan · i)).sum_eq, hperm.length_eq]
  have ho : opacity cs / (cs.length : ℝ) = opacity cs' / (cs'.length : ℝ) := by
    simp only [opacity, (hperm.map opac).sum_eq, hperm.length_eq]
  obtain ⟨first, rest, rfl⟩ := List.exists_cons_of_ne_nil hn
  obtain ⟨first', rest', rfl⟩ := List.exists_cons_of_ne_nil hn'
  obtain ⟨al, e, hal⟩ := average_value ht ia hp
  obtain ⟨al', e', hal'⟩ := average_value ht ia hp'
  refine ⟨_, _, averages_of hn e, averages_of hn' e', by simp only [hm], fun hc hia hsp => ?_⟩
  subst hia
  rw [hal (Or.inl hc), hal' (Or.inl hc)]
  simp only [hm, if_true, ho]
  rw [hsp first (by simp) first' (hperm.mem_iff.mpr (by simp))]

/-- C67: with alpha included the opacity of the average is the mean of the opacities, otherwise the opacity of the first colour.  Missing: the mean for CMYK, see `C67_violated`. -/
theorem C67_alpha_partial (t : ColorType) (ht : t ≠ .undefined) (ia : Bool) (hc : t ≠ .cmyk ∨ ia = false) (cs : List Color) (hn : cs ≠ []) (hp : ∀ c ∈ cs, Proper t c) :
    ∃ r, Averages t ia cs r ∧ (ia = true → HasOpacity r ((cs.map opac).sum / cs.length)) ∧ (ia = false → HasOpacity r (opac (cs.head hn)) ∧ r.alpha = (cs.head hn).alpha) := by
  obtain ⟨first, rest, rfl⟩ := List.exists_cons_of_ne_nil hn
  obtain ⟨al, e, hal⟩ := average_value ht ia hp
  have hcol : ∀ al, IsColor t ⟨t, t, (List.range (Color.count t)).map (fun i => fin (mean (first :: rest) i)), al, Color.maxOf t, Color.minOf t, first.space⟩ := fun al => ⟨rfl, rfl, by simp, rfl, rfl⟩
  refine ⟨_, averages_of hn e, ?_, ?_⟩
  · rintro rfl
    rw [hasOpacity_iff (hcol al), hal hc]
    rfl
  · rintro rfl
    refine ⟨?_, ?_⟩
    · rw [hasOpacity_iff (hcol al), hal hc]
      rfl
    · have hf := hp first (by simp)
      simp only [List.head_cons, Color.alpha, hal hc, hf.col.cls, hf.opac_eq, Bool.false_eq_true, if_false]

/-- The alpha slot of a CMYK average starts each time from the sum of the black channel: the average has `(sum of black + alpha of the last colour) / n` as alpha.
For instance the average of one opaque half-black colour has the alpha 3/2. -/
theorem C67_violated (cs : List Color) (hn : cs ≠ []) (hp : ∀ c ∈ cs, Proper .cmyk c) :
    ∃ r, Averages .cmyk true cs r ∧ HasOpacity r (((cs.map (chan · 3)).sum + opac (cs.getLast hn)) / cs.length) := by
  obtain ⟨first, rest, rfl⟩ := List.exists_cons_of_ne_nil hn
  obtain ⟨al, e, ev⟩ := averageVal_exact (t := .cmyk) (by simp) true hp
  refine ⟨_, averages_of hn ev, ?_⟩
  have hz : List.replicate (Color.count .cmyk) (0 : Fl) = (List.range (Color.count .cmyk)).map (fun _ => fin 0) := by
    simp [List.map_const']
  have hl := loop_cmyk first (first :: rest) hp hn (fun _ => 0) 0
  rw [hz] at e
  rw [e] at hl
  simp only [ok_inj, Prod.mk.injEq] at hl
  have hn' : ((first :: rest).length : ℝ) ≠ 0 := by
    have : (0 : ℝ) < (first :: rest).length := by exact_mod_cast List.length_pos_iff.mpr (by simp)
    exact this.ne'
  rw [hasOpacity_iff (t := .cmyk) ⟨rfl, rfl, by simp, rfl, rfl⟩]
  simp only [hl.2, if_true, Color.scalesAlpha, Bool.false_eq_true, if_false, zero_add]
  rw [div_exact _ _ hn']
  rfl

/-- An opaque half-black colour: not its own average. -/
example : ∃ c r, Proper .cmyk c ∧ opac c = 1 ∧ Averages .cmyk true [c] r ∧ HasOpacity r (3 / 2) := by
  have hp : Proper .cmyk ⟨.cmyk, .cmyk, [fin 0, fin 0, fin 0, fin 0.5], fin 1, 1, 0, none⟩ := by
    refine ⟨⟨rfl, rfl, rfl, rfl, rfl⟩, fun i hi => ?_, ⟨1, rfl, by norm_num, le_rfl⟩⟩
    match i, hi with
    | 0, _ => exact ⟨0, rfl, show (0 : ℝ) ≤ 0 by norm_num, show (0 : ℝ) ≤ 1 by norm_num⟩
    | 1, _ => exact ⟨0, rfl, show (0 : ℝ) ≤ 0 by norm_num, show (0 : ℝ) ≤ 1 by norm_num⟩
    | 2, _ => exact ⟨0, rfl, show (0 : ℝ) ≤ 0 by norm_num, show (0 : ℝ) ≤ 1 by norm_num⟩
    | 3, _ => exact ⟨0.5, rfl, show (0 : ℝ) ≤ 0.5 by norm_num, show (0.5 : ℝ) ≤ 1 by norm_num⟩
  obtain ⟨r, h1, h2⟩ := C67_violated [_] (by simp) (fun c hc => by rw [List.mem_singleton.mp hc]; exact hp)
  refine ⟨_, r, hp, rfl, h1, ?_⟩
  convert h2 using 1
  norm_num [chan, opac]

/-- Two different grey colours in a list. -/
example : ∀ c ∈ [(⟨.greyDeep, .greyDeep, [fin 0.25], fin 1, 1, 0, none⟩ : Color), ⟨.greyDeep, .greyDeep, [fin 0.5], fin 0.5, 1, 0, none⟩], Proper .greyDeep c := by
  have : ∀ v a : ℝ, 0 ≤ v → v ≤ 1 → 0 ≤ a → a ≤ 1 → Proper .greyDeep ⟨.greyDeep, .greyDeep, [fin v], fin a, 1, 0, none⟩ := by
    intro v a v0 v1 a0 a1
    refine ⟨⟨rfl, rfl, rfl, rfl, rfl⟩, fun i hi => ?_, ⟨a, rfl, a0, a1⟩⟩
    match i, hi with
    | 0, _ => exact ⟨_, rfl, v0, v1⟩
  intro c hc
  simp only [List.mem_cons, List.not_mem_nil, or_false] at hc
  rcases hc with rfl | rfl
  · exact this _ _ (by norm_num) (by norm_num) (by norm_num) (by norm_num)
  · exact this _ _ (by norm_num) (by norm_num) (by norm_num) (by norm_num)

/-! ## C68: subtract and alpha -/

/-- C68 for the nine types with a difference of their own: the opacities are subtracted; the two 8-bit types limit the result.  Missing: the other six types, see `C68_violated`. -/
theorem C68_alpha_partial (t : ColorType) (ht : Flat t ∨ t = .hsv) (a b : Color) (ha : Proper t a) (hb : Proper t b) (w : ℝ) (h0 : 0 ≤ w) (h1 : w ≤ 1) (wl : World) :
    ∃ r, Yields (subOf t (fin w) true) wl a b r ∧ (EightBit t → HasOpacity r (max 0 (opac a - w * opac b))) ∧ (¬ EightBit t → HasOpacity r (opac a - w * opac b)) := by
  have hd : t ≠ .undefined := by rintro rfl; simp [Flat] at ht
  have hm : middle t = t := by rcases ht with ht | rfl; (rcases ht with rfl | rfl | rfl | rfl | rfl | rfl | rfl | rfl <;> rfl); rfl
  have ho : subOf t (fin w) true = subOwn t (fin w) true := by cases t <;> first | rfl | simp [middle] at hm
  obtain ⟨r, er, fr⟩ := subVal_total hm hd (fin w) true ha.col hb.col
  refine ⟨r, by rw [ho]; exact subOwn_yields (pass_of ⟨w, rfl, h0, h1⟩) er, ?_⟩
  have hE : EightBit t ↔ Color.scalesAlpha t = true := by cases t <;> simp [EightBit, Color.scalesAlpha]
  suffices hr : r.malpha = fin (if Color.scalesAlpha t then max 0 (opac a - w * opac b) else opac a - w * opac b) by
    refine ⟨fun h => ?_, fun h => ?_⟩
    · rw [hasOpacity_iff fr.col, hr, if_pos (hE.mp h)]
    · rw [hasOpacity_iff fr.col, hr, if_neg (fun hh => h (hE.mpr hh))]
  have hal : alphaOf (minus (fin w)) true a b = fin (if Color.scalesAlpha t then (opac a - w * opac b) * 255 else opac a - w * opac b) := by
    simp only [alphaOf, if_true, ha.alpha_eq, hb.alpha_eq, minus]
    split
    · simp only [mul_exact, sub_exact]; congr 1; ring
    · simp only [mul_exact, sub_exact]
  have hz := zip_all (minus (fin w)) ha.col hb.col
  have key : ∀ vs sp, vs.length = Color.count t → Color.construct t vs (alphaOf (minus (fin w)) true a b) sp = ok r →
      r.malpha = fin (if Color.scalesAlpha t then max 0 (opac a - w * opac b) else opac a - w * opac b) := by
    intro vs sp hl e
    rw [Conv.construct_alpha hd hl e, hal]
    by_cases hs : Color.scalesAlpha t = true
    · rw [if_pos hs, if_pos hs, if_pos hs, lit_def, div_exact _ _ (by norm_num), show (opac a - w * opac b) * 255 / 255 = opac a - w * opac b by ring, one_def, zero_def, Color.clamp_fin]
      have := ha.opac_range
      have := hb.opac_range
      have hwb : 0 ≤ w * opac b := mul_nonneg h0 hb.opac_range.1
      rw [min_eq_left (by linarith), max_comm]
    · rw [if_neg hs, if_neg hs, if_neg hs]
  have hl : (List.zipWith (minus (fin w)) a.comps b.comps).length = Color.count t := by simp [ha.col.len, hb.col.len]
  rcases ht with ht | rfl
  · rcases ht with rfl | rfl | rfl | rfl | rfl | rfl | rfl | rfl <;>
      (simp only [Color.count] at hz
       simp only [subVal, hz, ok_bind] at er
       exact key _ _ hl er)
  · obtain ⟨x, y, z, ea⟩ := Conv.isColor_three rfl ha.col
    obtain ⟨x', y', z', eb⟩ := Conv.isColor_three rfl hb.col
    have ga0 : a.getComponent 0 = ok x := by rw [ea]; rfl
    have ga1 : a.getComponent 1 = ok y := by rw [ea]; rfl
    have ga2 : a.getComponent 2 = ok z := by rw [ea]; rfl
    have gb0 : b.getComponent 0 = ok x' := by rw [eb]; rfl
    have gb1 : b.getComponent 1 = ok y' := by rw [eb]; rfl
    have gb2 : b.getComponent 2 = ok z' := by rw [eb]; rfl
    simp only [subVal, ga0, ga1, ga2, gb0, gb1, gb2, ok_bind] at er
    exact key _ _ rfl er

/-- The overloads for HSI, HSL, HCY, LAB and both LCH classes drop `include_alpha`: the result has the opacity of the first colour, whatever the second is.  (Black HSL colours are excluded
because their conversion to RGB makes them transparent, see C33; HSL to HSV is direct.) -/
theorem C68_violated (t : ColorType) (ht : t = .hsi ∨ t = .hsl ∨ t = .hcy ∨ t = .lab ∨ t = .lchAb ∨ t = .lchUv) (a b : Color) (ha : Proper t a) (hb : Proper t b) (hbl : t = .hsl → chan a 2 ≠ 0)
    (w : ℝ) (h0 : 0 ≤ w) (h1 : w ≤ 1) (wl : World) (hw : Cie t → wl.Usable a.space ∧ wl.Usable b.space) :
    ∃ r, Yields (subOf t (fin w) true) wl a b r ∧ HasOpacity r (opac a) := by
  have hd : t ≠ .undefined := by rcases ht with rfl | rfl | rfl | rfl | rfl | rfl <;> simp
  have hmt : middle t ≠ t := by rcases ht with rfl | rfl | rfl | rfl | rfl | rfl <;> simp [middle]
  have hm := middle_defined hd
  obtain ⟨r, er, hy, fr⟩ := subOf_yields hd (w1 := fin w) (pass_of ⟨w, rfl, h0, h1⟩) true ha.col hb.col hw
  refine ⟨r, hy, ?_⟩
  rw [hasOpacity_iff fr.col]
  have hmm : middle (middle t) = middle t := by cases t <;> rfl
  obtain ⟨a', b', u, u', ea, eb, eu, cu, eu', -⟩ :=
    through_total (f := fun m => subVal m (fin w) (subAlpha t true)) hd (fun m hm hd a b ha hb => subVal_total hm hd _ _ ha hb) ha.col hb.col hw
  simp only [throughVal, ea, eb, eu, eu', ok_bind, ok_inj] at er
  subst er
  simp only [Val.to, if_neg hmt, if_neg (Ne.symm hmt)] at ea eb eu'
  have fa := (Conv.good_direct _ _ hd hm (Ne.symm hmt)).result _ _ _ ea
  have fb := (Conv.good_direct _ _ hd hm (Ne.symm hmt)).result _ _ _ eb
  have hnb : Conv.NotBlack a := by
    intro hc x hx hz
    have hts : t = .hsl := ha.col.ctype.symm.trans hc
    apply hbl hts
    rw [hz.1] at hx
    simp [chan, hx]
  have sc : Color.scalesAlpha t = false := by rcases ht with rfl | rfl | rfl | rfl | rfl | rfl <;> rfl
  have scm : Color.scalesAlpha (middle t) = false := by rcases ht with rfl | rfl | rfl | rfl | rfl | rfl <;> rfl
  have q1 : Conv.quant t (middle t) (opac a) = opac a := by simp [Conv.quant, sc, scm]
  have q2 : Conv.quant (middle t) t (opac a) = opac a := by simp [Conv.quant, sc, scm]
  have al := Conv.alpha_direct t (middle t) hd hm (Ne.symm hmt) wl a a' (opac a) ha.col hnb ha.opac_eq ha.opac_range.1 ha.opac_range.2 ea
  rw [q1] at al
  have hu : u.malpha = fin (opac a) := by
    have e0 : alphaOf (minus (fin w)) (subAlpha t true) a' b' = fin (opac a) := by
      simp only [alphaOf, subAlpha, if_neg hmt, Bool.false_eq_true, if_false, Color.alpha, fa.col.cls, scm, al.1]
    have key : ∀ m vs sp, m ≠ .undefined → Color.scalesAlpha m = false → vs.length = Color.count m → Color.construct m vs (alphaOf (minus (fin w)) (subAlpha t true) a' b') sp = ok u → u.malpha = fin (opac a) := by
      intro m vs sp hm hs hl e
      rw [Conv.construct_alpha hm hl e, hs, e0]
      simp
    have hz := zip_all (minus (fin w)) fa.col fb.col
    have hl : (List.zipWith (minus (fin w)) a'.comps b'.comps).length = Color.count (middle t) := by simp [fa.col.len, fb.col.len]
    have hmc : middle t = .hsv ∨ middle t = .xyz := by rcases ht with rfl | rfl | rfl | rfl | rfl | rfl <;> simp [middle]
    rcases hmc with hmc | hmc
    · rw [hmc] at eu fa fb
      obtain ⟨x, y, z, xa⟩ := Conv.isColor_three rfl fa.col
      obtain ⟨x', y', z', xb⟩ := Conv.isColor_three rfl fb.col
      have ga0 : a'.getComponent 0 = ok x := by rw [xa]; rfl
      have ga1 : a'.getComponent 1 = ok y := by rw [xa]; rfl
      have ga2 : a'.getComponent 2 = ok z := by rw [xa]; rfl
      have gb0 : b'.getComponent 0 = ok x' := by rw [xb]; rfl
      have gb1 : b'.getComponent 1 = ok y' := by rw [xb]; rfl
      have gb2 : b'.getComponent 2 = ok z' := by rw [xb]; rfl
      simp only [subVal, ga0, ga1, ga2, gb0, gb1, gb2, ok_bind] at eu
      exact key .hsv _ _ (by simp) rfl rfl eu
    · rw [hmc] at eu hz hl
      simp only [Color.count] at hz
      simp only [subVal, hz, ok_bind] at eu
      exact key .xyz _ _ (by simp) rfl hl eu
  have hnb2 : Conv.NotBlack u := by
    intro hc
    rw [cu.ctype] at hc
    rcases ht with rfl | rfl | rfl | rfl | rfl | rfl <;> simp [middle] at hc
  have := Conv.alpha_direct (middle t) t hm hd hmt wl u u' (opac a) cu hnb2 hu ha.opac_range.1 ha.opac_range.2 eu'
  rw [q2] at this
  exact this.1

/-- An opaque HSI colour minus half of an opaque HSI colour: 1 instead of the opacity 1/2 the same call gives for HSV. -/
example : ∃ a b : Color, Proper .hsi a ∧ Proper .hsi b ∧ opac a - 1 / 2 * opac b ≠ opac a ∧ ¬ Cie .hsi := by
  have hp : ∀ x : ℝ, 0 ≤ x → x ≤ 1 → Proper .hsi (obj .hsi 200 0.5 x (fin 1) none) := by
    intro x x0 x1
    refine ⟨⟨rfl, rfl, rfl, rfl, rfl⟩, fun i hi => ?_, ⟨1, rfl, by norm_num, le_rfl⟩⟩
    match i, hi with
    | 0, _ => exact ⟨200, rfl, show (0 : ℝ) ≤ 200 by norm_num, show (200 : ℝ) ≤ 359 by norm_num⟩
    | 1, _ => exact ⟨0.5, rfl, show (0 : ℝ) ≤ 0.5 by norm_num, show (0.5 : ℝ) ≤ 1 by norm_num⟩
    | 2, _ => exact ⟨x, rfl, x0, x1⟩
  exact ⟨_, _, hp 0.5 (by norm_num) (by norm_num), hp 0.25 (by norm_num) (by norm_num), by norm_num [opac, obj], by simp [Cie]⟩

end
