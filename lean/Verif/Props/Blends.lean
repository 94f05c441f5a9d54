import Verif.Props.PorterDuff

/-!
# Blending (C56–C62)
-/

open Outcome Fl Prog ObjectSpec ConvSpec Hue BlendSpec

namespace BlendSpec

/-- The componentwise blend modes; `dissolve` with the numbers that `rand()` returns, `custom` with the function of the caller. -/
inductive Mode where
  | normal | multiply | screen | overlay | darken | lighten | color_dodge | linear_dodge | color_burn | linear_burn | hard_light | soft_light | vivid_light | linear_light | pin_light | hard_mix | difference | subtract | divide | plus_lighter | plus_darker | exclusion
  | dissolve (rand : Nat → Nat)
  | custom (f : Fl → Fl → Fl)

/-- The function that implements a mode. -/
noncomputable def Mode.run [FloatModel] : Mode → Bool → Bool → Ptr → Ptr → Prog Ptr
  | .normal => ColorBlend.normal
  | .multiply => ColorBlend.multiply
  | .screen => ColorBlend.screen
  | .overlay => ColorBlend.overlay
  | .darken => ColorBlend.darken
  | .lighten => ColorBlend.lighten
  | .color_dodge => ColorBlend.color_dodge
  | .linear_dodge => ColorBlend.linear_dodge
  | .color_burn => ColorBlend.color_burn
  | .linear_burn => ColorBlend.linear_burn
  | .hard_light => ColorBlend.hard_light
  | .soft_light => ColorBlend.soft_light
  | .vivid_light => ColorBlend.vivid_light
  | .linear_light => ColorBlend.linear_light
  | .pin_light => ColorBlend.pin_light
  | .hard_mix => ColorBlend.hard_mix
  | .difference => ColorBlend.difference
  | .subtract => ColorBlend.subtract
  | .divide => ColorBlend.divide
  | .plus_lighter => ColorBlend.plus_lighter
  | .plus_darker => ColorBlend.plus_darker
  | .exclusion => ColorBlend.exclusion
  | .dissolve rand => ColorBlend.dissolve rand
  | .custom f => ColorBlend.custom_componentwise_blend f

/-- The modes that combine hue, chroma and luma. -/
inductive HueMode where
  | hue | saturation | color | luminosity

/-- The function that implements a mode. -/
noncomputable def HueMode.run [FloatModel] : HueMode → Bool → Bool → Ptr → Ptr → Prog Ptr
  | .hue => ColorBlend.hue
  | .saturation => ColorBlend.saturation
  | .color => ColorBlend.color
  | .luminosity => ColorBlend.luminosity

/-- A function given by the caller must return numbers. -/
def Mode.Finite : Mode → Prop
  | .custom f => ∀ s d : ℝ, IsFin (f (fin s) (fin d))
  | _ => True

open Classical in
/-- The value in the region covered by both colours, from the channel values `s` and `d`, the difference `δ` of the two alpha values and the number of the
channel.  This is what the library implements; C62 compares it with the definitions of the modes. -/
noncomputable def Mode.formula (m : Mode) (δ : ℝ) (i : Nat) (s d : ℝ) : ℝ := match m with
  | .normal => s
  | .multiply => s * d
  | .screen => s + d - s * d
  | .overlay => if d ≤ 1 / 2 then 2 * s * d else 1 - 2 * (1 - s) * (1 - d)
  | .darken => min s d
  | .lighten => max s d
  | .color_dodge => if d = 0 then 0 else if s = 1 then 1 else min (d / (1 - s)) 1
  | .linear_dodge => s + d
  | .color_burn => if d = 1 then 0 else if s = 0 then 1 else min ((1 - d) / s) 1
  | .linear_burn => s + d - 1
  | .hard_light => if s ≤ 1 / 2 then 2 * s * d else 1 - 2 * (1 - s) * (1 - d)
  | .soft_light => if s ≤ 1 / 2 then d * (s + 1 / 2) else 1 - (1 - d) * (s - 1 / 2)
  | .vivid_light => if s ≤ 1 / 2 then (if d = 0 then 0 else if s = 1 / 2 then 1 else d / (1 - 2 * s)) else (if d = 1 then 1 else if s = 1 then 0 else 1 - (1 - d) / (2 * s - 1))
  | .linear_light => if s ≤ 1 / 2 then d + 2 * s - 1 else d + (2 * s - 1)
  | .pin_light => if s ≤ 1 / 2 then min d (2 * s) else max d (2 * s - 1)
  | .hard_mix => if s + d < 1 then 0 else 1
  | .difference => |s - d|
  | .subtract => s - d
  | .divide => if d = 0 then 0 else if s = 0 then 1 else d / s
  | .plus_lighter => s + d
  | .plus_darker => s + d - 1
  | .exclusion => s + d - 2 * s * d
  | .dissolve rand => if (0 < δ ∧ 25 ≤ rand i % 101) ∨ (δ ≤ 0 ∧ rand i % 101 < 25) then s else d
  | .custom f => match f (fin s) (fin d) with
    | fin x => x
    | _ => 0

/-- `x` limited to 0..1. -/
noncomputable def limit (x : ℝ) : ℝ := max 0 (min 1 x)

end BlendSpec

/-! ### Helper lemmas -/

namespace Blend

/-- The function of the both region. -/
noncomputable def modeF [FloatModel] : Mode → Color → Color → Nat → Fl → Fl → Fl
  | .normal => fun _ _ _ s _ => s
  | .multiply => fun _ _ _ s d => ColorBlend.multiply_func s d
  | .screen => fun _ _ _ s d => ColorBlend.screen_func s d
  | .overlay => fun _ _ _ s d => ColorBlend.overlay_func s d
  | .darken => fun _ _ _ s d => ColorBlend.darken_func s d
  | .lighten => fun _ _ _ s d => ColorBlend.lighten_func s d
  | .color_dodge => fun _ _ _ s d => ColorBlend.color_dodge_func s d
  | .linear_dodge => fun _ _ _ s d => ColorBlend.linear_dodge_func s d
  | .color_burn => fun _ _ _ s d => ColorBlend.color_burn_func s d
  | .linear_burn => fun _ _ _ s d => ColorBlend.linear_burn_func s d
  | .hard_light => fun _ _ _ s d => ColorBlend.hard_light_func s d
  | .soft_light => fun _ _ _ s d => ColorBlend.soft_light_func s d
  | .vivid_light => fun _ _ _ s d => ColorBlend.vivid_light_func s d
  | .linear_light => fun _ _ _ s d => ColorBlend.linear_light_func s d
  | .pin_light => fun _ _ _ s d => ColorBlend.pin_light_func s d
  | .hard_mix => fun _ _ _ s d => ColorBlend.hard_mix_func s d
  | .difference => fun _ _ _ s d => ColorBlend.difference_func s d
  | .subtract => fun _ _ _ s d => ColorBlend.subtract_func s d
  | .divide => fun _ _ _ s d => ColorBlend.divide_func s d
  | .plus_lighter => fun _ _ _ s d => ColorBlend.plus_lighter_func s d
  | .plus_darker => fun _ _ _ s d => ColorBlend.plus_darker_func s d
  | .exclusion => fun _ _ _ s d => ColorBlend.exclusion_func s d
  | .dissolve rand => fun sc dc i s d => ColorBlend.dissolve_func (rand i) s d (sc.alpha - dc.alpha)
  | .custom f => fun _ _ _ s d => f s d

theorem mode_eq [FloatModel] (m : Mode) (us ud : Bool) : m.run us ud = operator us ud true (modeF m) := by
  cases m <;> rfl

section
variable [FloatModel] [ExactModel]

theorem mode_value (m : Mode) (hm : m.Finite) (sc dc : Color) (δ : ℝ) (hδ : sc.alpha - dc.alpha = fin δ) (i : Nat) {s d : ℝ} (s0 : 0 ≤ s) (s1 : s ≤ 1)
    (d0 : 0 ≤ d) (d1 : d ≤ 1) : modeF m sc dc i (fin s) (fin d) = fin (m.formula δ i s d) := by
  have half : (0.5 : ℝ) = 1 / 2 := by norm_num
  cases m with
  | dissolve rand =>
    simp only [modeF, ColorBlend.dissolve_func, Mode.formula, hδ, gt_iff_lt, ge_iff_le, zero_def, lit_def, fin_lt, fin_le]
    have e : ((OfNat.ofNat 25 : ℝ) ≤ ((rand i % 101 : ℕ) : ℝ)) ↔ 25 ≤ rand i % 101 := by
      rw [show (OfNat.ofNat 25 : ℝ) = ((25 : ℕ) : ℝ) by norm_num]; exact Nat.cast_le
    simp only [e]
    by_cases h1 : 0 < δ <;> by_cases h2 : 25 ≤ rand i % 101
    · rw [if_pos h1, if_pos h2, if_pos (Or.inl ⟨h1, h2⟩)]
    · rw [if_pos h1, if_neg h2, if_neg]
      rintro (⟨-, h⟩ | ⟨h, -⟩)
      · exact h2 h
      · linarith
    · rw [if_neg h1, if_pos h2, if_neg]
      rintro (⟨h, -⟩ | ⟨-, h⟩)
      · exact h1 h
      · omega
    · rw [if_neg h1, if_neg h2, if_pos (Or.inr ⟨not_lt.mp h1, not_le.mp h2⟩)]
  | custom f =>
    obtain ⟨r, hr⟩ := hm s d
    simp only [modeF, Mode.formula, hr]
  | normal => rfl
  | multiply => simp [modeF, ColorBlend.multiply_func, Mode.formula]
  | screen => simp [modeF, ColorBlend.screen_func, Mode.formula]; ring
  | darken => simp [modeF, ColorBlend.darken_func, Mode.formula]
  | lighten => simp [modeF, ColorBlend.lighten_func, Mode.formula]
  | linear_dodge => simp [modeF, ColorBlend.linear_dodge_func, Mode.formula]
  | linear_burn => simp [modeF, ColorBlend.linear_burn_func, Mode.formula]; ring
  | difference => simp [modeF, ColorBlend.difference_func, Mode.formula, abs_sub_comm]
  | subtract => simp [modeF, ColorBlend.subtract_func, Mode.formula]
  | plus_lighter => simp [modeF, ColorBlend.plus_lighter_func, ColorBlend.linear_dodge_func, Mode.formula]
  | plus_darker => simp [modeF, ColorBlend.plus_darker_func, ColorBlend.linear_dodge_func, Mode.formula]
  | exclusion => simp [modeF, ColorBlend.exclusion_func, Mode.formula]; ring
  | color_dodge =>
    simp only [modeF, ColorBlend.color_dodge_func, Mode.formula, zero_def, one_def, feq_fin]
    split_ifs with h1 h2 h3 h4
    · rfl
    · rfl
    · have : (1 : ℝ) - s ≠ 0 := sub_ne_zero.mpr (Ne.symm h2)
      rw [sub_exact, div_exact _ _ this] at h3 ⊢
      rw [min_eq_left (fin_le.mp h3)]
    · have : (1 : ℝ) - s ≠ 0 := sub_ne_zero.mpr (Ne.symm h2)
      rw [sub_exact, div_exact _ _ this] at h3
      rw [min_eq_right (not_le.mp (fun h => h3 (fin_le.mpr h))).le]
  | color_burn =>
    simp only [modeF, ColorBlend.color_burn_func, Mode.formula, zero_def, one_def, feq_fin]
    split_ifs with h1 h2 h3 h4
    · rfl
    · rfl
    · rw [sub_exact, div_exact _ _ h2] at h3 ⊢
      rw [min_eq_left (fin_le.mp h3)]
    · rw [sub_exact, div_exact _ _ h2] at h3
      rw [min_eq_right (not_le.mp (fun h => h3 (fin_le.mpr h))).le]
  | hard_light =>
    simp only [modeF, ColorBlend.hard_light_func, Mode.formula, fin_le, half, one_def, lit_def, sub_exact, mul_exact, ← apply_ite fin, fin_inj]
    split_ifs <;> ring
  | overlay =>
    simp only [modeF, ColorBlend.overlay_func, ColorBlend.hard_light_func, Mode.formula, fin_le, half, one_def, lit_def, sub_exact, mul_exact, ← apply_ite fin, fin_inj]
    split_ifs <;> ring
  | soft_light =>
    simp only [modeF, ColorBlend.soft_light_func, Mode.formula, fin_le, half, one_def, lit_def, sub_exact, add_exact, mul_exact, ← apply_ite fin, fin_inj]
    split_ifs <;> ring
  | linear_light =>
    simp only [modeF, ColorBlend.linear_light_func, Mode.formula, fin_le, half, one_def, lit_def, sub_exact, add_exact, mul_exact, ← apply_ite fin, fin_inj]
    split_ifs <;> ring
  | pin_light =>
    simp only [modeF, ColorBlend.pin_light_func, Mode.formula, fin_le, half, one_def, lit_def, sub_exact, add_exact, mul_exact, fmin_fin, fmax_fin, ← apply_ite fin, fin_inj]
    split_ifs
    · rfl
    · congr 1; ring
  | hard_mix =>
    simp only [modeF, ColorBlend.hard_mix_func, Mode.formula, zero_def, one_def, sub_exact, fin_lt, ← apply_ite fin, fin_inj]
    have : s < 1 - d ↔ s + d < 1 := by constructor <;> intro h <;> linarith
    simp only [this]
  | divide =>
    simp only [modeF, ColorBlend.divide_func, Mode.formula, zero_def, one_def, feq_fin]
    split_ifs with h1 h2
    · rfl
    · rfl
    · rw [div_exact _ _ h2]
  | vivid_light =>
    simp only [modeF, ColorBlend.vivid_light_func, Mode.formula, fin_le, half, zero_def, one_def, lit_def, feq_fin, mul_exact, sub_exact]
    split_ifs with h1 h2 h3 h4 h5
    · rfl
    · rfl
    · rw [div_exact _ _ (by intro h; apply h3; linarith)]
    · rfl
    · rfl
    · rw [div_exact _ _ (by intro h; apply h1; linarith), sub_exact]
      congr 3; ring

end

end Blend


section
variable [FloatModel]

/-! ## C56: bad arguments -/

/-- C56: every Porter-Duff operator and every componentwise blend mode throws when an argument is null, whatever the other argument is, and leaves the memory as it was. -/
theorem C56_null (p : Ptr) (h : Heap) (us ud : Bool) :
    (∀ op : PdOp, op.run none p h = (Outcome.throwNewInvalid, h) ∧ op.run p none h = (Outcome.throwNewInvalid, h)) ∧
    (∀ m : Mode, m.run us ud none p h = (Outcome.throwNewInvalid, h) ∧ m.run us ud p none h = (Outcome.throwNewInvalid, h)) := by
  have key : ∀ a b c f, Blend.operator a b c f none p h = (Outcome.throwNewInvalid, h) ∧ Blend.operator a b c f p none h = (Outcome.throwNewInvalid, h) := by
    intro a b c f
    constructor
    · rfl
    · cases p <;> rfl
  exact ⟨fun op => by rw [Blend.run_eq]; exact key .., fun m => by rw [Blend.mode_eq]; exact key ..⟩

/-- C56: they throw when the two colours refer to different colour space definitions, and leave the memory as it was. -/
theorem C56_space (h : Heap) (i j : Nat) (s d : Color) (hi : h.colors[i]? = some s) (hj : h.colors[j]? = some d) (hsp : s.space ≠ d.space) (us ud : Bool) :
    (∀ op : PdOp, op.run (some i) (some j) h = (Outcome.throwNewInvalid, h)) ∧
    (∀ m : Mode, m.run us ud (some i) (some j) h = (Outcome.throwNewInvalid, h)) := by
  have key : ∀ a b c f, Blend.operator a b c f (some i) (some j) h = (Outcome.throwNewInvalid, h) := by
    intro a b c f
    simp only [Blend.operator, reduceCtorEq, if_false, Prog.bind_def, load, hi, hj]
    rw [if_pos hsp]
    rfl
  exact ⟨fun op => by rw [Blend.run_eq]; exact key .., fun m => by rw [Blend.mode_eq]; exact key ..⟩

/-- The other modes do not check: a null argument is dereferenced. -/
theorem C56_hue_modes_unchecked (m : HueMode) (us ud : Bool) (p : Ptr) (h : Heap) : m.run us ud none p h = (.ub, h) := by
  cases m <;> rfl

/-- Case: the same colour in two colour spaces. -/
example (w : World) (c : Color) : PorterDuff.over (some 0) (some 1) ⟨w, [{c with space := some 0}, {c with space := some 1}]⟩ =
    (Outcome.throwNewInvalid, ⟨w, [{c with space := some 0}, {c with space := some 1}]⟩) :=
  (C56_space _ 0 1 _ _ rfl rfl (by simp) true true).1 .over

/-! ## C57: the formulas -/

section
variable [ExactModel]

/-- The values in the both region are those of the table, for RGB_DEEP colours. -/
theorem Blend.mode_exact (m : Mode) (hm : m.Finite) (w : World) (us ud : Bool) (s d : Color) (s0 s1 s2 sa d0 d1 d2 da : ℝ) (hs : IsPixel s s0 s1 s2 sa)
    (hd : IsPixel d d0 d1 d2 da) (hsp : s.space = d.space) : Yields (m.run us ud) w s d (obj .rgbDeep
      (quot (alphaOf us ud true sa da) (unit (comb us ud sa da s0 d0 (m.formula (sa - da) 0 s0 d0))))
      (quot (alphaOf us ud true sa da) (unit (comb us ud sa da s1 d1 (m.formula (sa - da) 1 s1 d1))))
      (quot (alphaOf us ud true sa da) (unit (comb us ud sa da s2 d2 (m.formula (sa - da) 2 s2 d2)))) (fin (alphaOf us ud true sa da)) s.space) := by
  have hδ : s.alpha - d.alpha = fin (sa - da) := by
    have h1 : s.alpha = fin sa := by rw [hs.eq, obj_alpha _ _ _ _ _ _ rfl]
    have h2 : d.alpha = fin da := by rw [hd.eq, obj_alpha _ _ _ _ _ _ rfl]
    rw [h1, h2, sub_exact]
  have hg := gpd_exact hs.rgb.col hs.rgb.comps hs.alpha hd.rgb.col hd.rgb.comps hd.alpha us ud true (modeF m s d)
    (mode_value m hm s d _ hδ 0 hs.rgb.r0 hs.rgb.r1 hd.rgb.r0 hd.rgb.r1) (mode_value m hm s d _ hδ 1 hs.rgb.g0 hs.rgb.g1 hd.rgb.g0 hd.rgb.g1)
    (mode_value m hm s d _ hδ 2 hs.rgb.b0 hs.rgb.b1 hd.rgb.b0 hd.rgb.b1)
  have hy := operator_rgb (f := modeF m) (w := w) hs.rgb.col hd.rgb.col hsp hg
  rw [← mode_eq] at hy
  exact hy

omit [FloatModel] [ExactModel] in
theorem Blend.unit_limit (x : ℝ) : unit x = limit x := by rw [unit, limit, max_comm, min_comm]

/-- C57: blending two opaque RGB_DEEP colours gives the value of the formula limited to 0..1 in every channel, and alpha 1, for every mode and whichever
regions are used. -/
theorem C57_opaque (m : Mode) (hm : m.Finite) (w : World) (us ud : Bool) (s d : Color) (s0 s1 s2 d0 d1 d2 : ℝ) (hs : IsPixel s s0 s1 s2 1)
    (hd : IsPixel d d0 d1 d2 1) (hsp : s.space = d.space) : Yields (m.run us ud) w s d
      (obj .rgbDeep (limit (m.formula 0 0 s0 d0)) (limit (m.formula 0 1 s1 d1)) (limit (m.formula 0 2 s2 d2)) (fin 1) s.space) := by
  have h := Blend.mode_exact m hm w us ud s d s0 s1 s2 1 d0 d1 d2 1 hs hd hsp
  have ha : Blend.alphaOf us ud true 1 1 = 1 := by simp [Blend.alphaOf, Blend.weight]
  have hc : ∀ a b v : ℝ, Blend.comb us ud 1 1 a b v = v := by intro a b v; simp [Blend.comb]
  have hq : ∀ x : ℝ, Blend.quot 1 x = x := by intro x; simp [Blend.quot]
  simpa only [ha, hc, hq, Blend.unit_limit, sub_self] using h

/-- C57 for all opacities, with both regions: alpha is that of `over`, and the product of colour and alpha is the formula on the shared area plus the two colours on
theirs, limited to 0..1. -/
theorem C57_translucent (m : Mode) (hm : m.Finite) (w : World) (s d : Color) (s0 s1 s2 sa d0 d1 d2 da : ℝ) (hs : IsPixel s s0 s1 s2 sa)
    (hd : IsPixel d d0 d1 d2 da) (hsp : s.space = d.space) (hα : sa + da - sa * da ≠ 0) : ∃ r0 r1 r2,
      Yields (m.run true true) w s d (obj .rgbDeep r0 r1 r2 (fin (sa + da - sa * da)) s.space) ∧
      r0 * (sa + da - sa * da) = limit (sa * (1 - da) * s0 + da * (1 - sa) * d0 + sa * da * m.formula (sa - da) 0 s0 d0) ∧
      r1 * (sa + da - sa * da) = limit (sa * (1 - da) * s1 + da * (1 - sa) * d1 + sa * da * m.formula (sa - da) 1 s1 d1) ∧
      r2 * (sa + da - sa * da) = limit (sa * (1 - da) * s2 + da * (1 - sa) * d2 + sa * da * m.formula (sa - da) 2 s2 d2) := by
  have h := Blend.mode_exact m hm w true true s d s0 s1 s2 sa d0 d1 d2 da hs hd hsp
  have ha : Blend.alphaOf true true true sa da = sa + da - sa * da := by simp [Blend.alphaOf, Blend.weight]; ring
  rw [ha] at h
  refine ⟨_, _, _, h, ?_, ?_, ?_⟩ <;>
    simp only [Blend.quot, if_neg hα, Blend.comb, Blend.weight, if_true, one_mul, Blend.unit_limit, div_mul_cancel₀ _ hα]

/-- Case: opaque red multiplied with opaque yellow; linear dodge reaches the limit. -/
example (w : World) : Yields (ColorBlend.multiply true true) w (obj .rgbDeep 1 0 0 (fin 1) none) (obj .rgbDeep 0.5 1 0 (fin 1) none) (obj .rgbDeep 0.5 0 0 (fin 1) none) ∧
    Yields (ColorBlend.linear_dodge true true) w (obj .rgbDeep 1 0 0 (fin 1) none) (obj .rgbDeep 0.5 1 0 (fin 1) none) (obj .rgbDeep 1 1 0 (fin 1) none) := by
  have h1 := C57_opaque .multiply trivial w true true _ _ 1 0 0 0.5 1 0 (isPixel_obj none (by norm_num) (by norm_num) (by norm_num) (by norm_num))
    (isPixel_obj none (by norm_num) (by norm_num) (by norm_num) (by norm_num)) rfl
  have h2 := C57_opaque .linear_dodge trivial w true true _ _ 1 0 0 0.5 1 0 (isPixel_obj none (by norm_num) (by norm_num) (by norm_num) (by norm_num))
    (isPixel_obj none (by norm_num) (by norm_num) (by norm_num) (by norm_num)) rfl
  norm_num [Mode.formula, limit] at h1 h2 ⊢
  exact ⟨h1, h2⟩

end

/-- C57 for other types, any rounding, all modes but dissolve: the colours are converted to RGB_DEEP, blended there and converted to the type of the source. -/
theorem C57_any_type (m : Mode) (hm : ∀ rand, m ≠ .dissolve rand) (w : World) (us ud : Bool) (ts td : ColorType) (hts : ts ≠ .undefined ∧ ts ≠ .lchAb ∧ ts ≠ .lchUv)
    (htd : td ≠ .undefined) (s d s' d' r r' : Color) (hs : IsColor ts s) (hd : IsColor td d) (hsp : s.space = d.space) (vs : Converts w s .rgbDeep s')
    (vd : Converts w d .rgbDeep d') (hy : Yields (m.run us ud) w s' d' r) (vr : Converts w r ts r') : Yields (m.run us ud) w s d r' := by
  rw [Blend.mode_eq] at hy ⊢
  cases m with
  | dissolve rand => exact absurd rfl (hm rand)
  | _ => exact Blend.operator_any hts.1 hts.2.1 hts.2.2 htd hs hd hsp vs vd hy vr

/-- The hypotheses of `C57_any_type` can be met for all types, and every mode yields a colour of the type of the source in the same colour space. -/
theorem C57_any_type_total (m : Mode) (w : World) (us ud : Bool) (ts td : ColorType) (hts : ts ≠ .undefined ∧ ts ≠ .lchAb ∧ ts ≠ .lchUv) (htd : td ≠ .undefined)
    (s d : Color) (hs : IsColor ts s) (hd : IsColor td d) (hsp : s.space = d.space) (hw : Cie ts ∨ Cie td → w.Usable s.space) :
    ∃ s' d' r r', Converts w s .rgbDeep s' ∧ Converts w d .rgbDeep d' ∧ ((∀ rand, m ≠ .dissolve rand) → Yields (m.run us ud) w s' d' r) ∧ IsColor .rgbDeep r ∧
      Converts w r ts r' ∧ Yields (m.run us ud) w s d r' ∧ IsColor ts r' ∧ r'.space = s.space := by
  have hn : ¬ Cie .rgbDeep := by simp [Cie]
  obtain ⟨s', e1, c1, p1⟩ := val_to_total hts.1 (t := .rgbDeep) (by simp) hs (w := w) (fun h _ => hw (h.elim Or.inl (fun h => absurd h hn)))
  obtain ⟨d', e2, c2, p2⟩ := val_to_total htd (t := .rgbDeep) (by simp) hd (w := w) (fun h _ => hsp ▸ hw (h.elim Or.inr (fun h => absurd h hn)))
  obtain ⟨r, g1, g2, g3⟩ := Blend.gpd_color c1 c2 us ud true (Blend.modeF m s d)
  obtain ⟨r', e3, c3, p3⟩ := val_to_total (s := .rgbDeep) (by simp) hts.1 g2 (w := w)
    (fun h _ => by rw [g3, p1]; exact hw (h.elim (fun h => absurd h hn) Or.inl))
  refine ⟨s', d', r, r', (converts_iff hts.1 (by simp) hs).mpr e1, (converts_iff htd (by simp) hd).mpr e2, ?_, g2, (converts_iff (by simp) hts.1 g2).mpr e3, ?_, c3,
    by rw [p3, g3, p1]⟩
  · intro hm
    rw [Blend.mode_eq]
    refine Blend.operator_rgb c1 c2 (by rw [p1, p2, hsp]) ?_
    rw [← g1]
    cases m with
    | dissolve rand => exact absurd rfl (hm rand)
    | _ => rfl
  · rw [Blend.mode_eq]
    exact Blend.operator_yields hts.1 hts.2.1 hts.2.2 htd hs hd hsp e1 e2 g1 g2 e3

/-- Case: an 8-bit source and an HSL destination. -/
example (w : World) : ∃ s d r, Color.construct .rgbTrue [255, 0, 0] 255 none = ok s ∧ Color.construct .hsl [0, 1, 1] 1 none = ok d ∧
    Yields (ColorBlend.screen true true) w s d r ∧ IsColor .rgbTrue r := by
  obtain ⟨s, hs⟩ := Conv.construct_total .rgbTrue (vs := [255, 0, 0]) 255 none rfl
  obtain ⟨d, hd⟩ := Conv.construct_total .hsl (vs := [0, 1, 1]) 1 none rfl
  have cs := (Conv.construct_result (by simp) (by rfl) hs)
  have cd := (Conv.construct_result (by simp) (by rfl) hd)
  obtain ⟨s', d', r, r', -, -, -, -, -, h, hc, -⟩ := C57_any_type_total .screen w true true .rgbTrue .hsl (by simp) (by simp) s d cs.col cd.col (by rw [cs.space, cd.space]) (by simp [Cie])
  exact ⟨s, d, r', hs, hd, h, hc⟩

end
