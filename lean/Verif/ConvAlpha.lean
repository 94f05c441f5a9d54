import Verif.Dispatch

/-! Proof machinery: what conversions do to the opacity, in exact arithmetic.  Generated. -/

open Outcome Fl Prog ObjectSpec

namespace Conv
variable [FloatModel] [ExactModel]

/-- Opacity after a conversion from `s` to `t`: true colours store multiples of 1/255. -/
noncomputable def quant (s t : ColorType) (a : ℝ) : ℝ :=
  match Color.scalesAlpha s, Color.scalesAlpha t with
  | false, true => (roundR (a * 255) : ℝ) / 255
  | _, _ => a

/-- How `f` maps the opacity of objects of class `s` that satisfy `P`. -/
def AlphaMap (s : ColorType) (P : Color → Prop) (f : World → Color → Outcome Color) (q : ℝ → ℝ) : Prop :=
  ∀ w c c' a, IsColor s c → P c → c.malpha = fin a → 0 ≤ a → a ≤ 1 → f w c = ok c' → c'.malpha = fin (q a) ∧ 0 ≤ q a ∧ q a ≤ 1

/-- An HSL colour that is not black. -/
def NotBlack (c : Color) : Prop := c.ctype = .hsl → ∀ x, c.comps[2]? = some x → ¬ feq x 0

/-- A black HSL colour. -/
def Black (c : Color) : Prop := c.comps[2]? = some 0

omit [FloatModel] [ExactModel] in
theorem round_unit {a : ℝ} (h0 : 0 ≤ a) (h1 : a ≤ 1) : 0 ≤ (roundR (a * 255) : ℝ) / 255 ∧ (roundR (a * 255) : ℝ) / 255 ≤ 1 := by
  have hr : roundR (a * 255) = ⌊a * 255 + 1/2⌋ := by rw [roundR, if_pos (by positivity)]
  have l0 : 0 ≤ roundR (a * 255) := by rw [hr]; exact Int.floor_nonneg.mpr (by positivity)
  have l1 : roundR (a * 255) ≤ 255 := by
    rw [hr]
    have : ⌊a * 255 + 1/2⌋ < 256 := Int.floor_lt.mpr (by push_cast; linarith)
    omega
  have l0' : (0 : ℝ) ≤ roundR (a * 255) := by exact_mod_cast l0
  have l1' : (roundR (a * 255) : ℝ) ≤ 255 := by exact_mod_cast l1
  constructor
  · positivity
  · rw [div_le_one (by norm_num)]; exact l1'

theorem alpha_deep {s : ColorType} (hs : Color.scalesAlpha s = false) {c : Color} (h : IsColor s c) : c.alpha = c.malpha := by
  rw [Color.alpha, h.cls, if_neg (by simp [hs])]

theorem alpha_true {s : ColorType} (hs : Color.scalesAlpha s = true) {c : Color} (h : IsColor s c) {a : ℝ} (ha : c.malpha = fin a) :
    c.alpha = fin (a * 255) := by
  rw [Color.alpha, h.cls, if_pos hs, ha]; simp

omit [FloatModel] [ExactModel] in
theorem clamp_unit {a : ℝ} (h0 : 0 ≤ a) (h1 : a ≤ 1) : Color.clamp (fin a) 1 0 = fin a := by
  simpa using Color.clamp_of_inRange (v := fin a) (mn := 0) (mx := 1) (by simp [h0, h1])

theorem div255 (x : ℝ) : (fin x / 255 : Fl) = fin (x / 255) := by
  have := div_exact x 255 (by norm_num); simpa using this

/-- Leaf with the alpha passed on unchanged, between types without scaling. -/
theorem alpha_keep {s t : ColorType} (hs : Color.scalesAlpha s = false) (ht : Color.scalesAlpha t = false) (htu : t ≠ .undefined) {c c' : Color} {a : ℝ}
    (hc : IsColor s c) (ha : c.malpha = fin a) (h0 : 0 ≤ a) (h1 : a ≤ 1) {vs : List Fl} {sp : Option Nat} (hl : vs.length = Color.count t)
    (h : Color.construct t vs c.alpha sp = ok c') : c'.malpha = fin a ∧ 0 ≤ a ∧ a ≤ 1 := by
  rw [construct_alpha htu hl h, if_neg (by simp [ht]), alpha_deep hs hc, ha]
  exact ⟨rfl, h0, h1⟩

theorem alpha_up {s t : ColorType} (hs : Color.scalesAlpha s = true) (ht : Color.scalesAlpha t = false) (htu : t ≠ .undefined) {c c' : Color} {a : ℝ}
    (hc : IsColor s c) (ha : c.malpha = fin a) (h0 : 0 ≤ a) (h1 : a ≤ 1) {vs : List Fl} {sp : Option Nat} (hl : vs.length = Color.count t)
    (h : Color.construct t vs (c.alpha / 255) sp = ok c') : c'.malpha = fin a ∧ 0 ≤ a ∧ a ≤ 1 := by
  rw [construct_alpha htu hl h, if_neg (by simp [ht]), alpha_true hs hc ha, div255]
  refine ⟨?_, h0, h1⟩
  congr 1; field_simp

theorem alpha_true_true {s t : ColorType} (hs : Color.scalesAlpha s = true) (ht : Color.scalesAlpha t = true) (htu : t ≠ .undefined) {c c' : Color} {a : ℝ}
    (hc : IsColor s c) (ha : c.malpha = fin a) (h0 : 0 ≤ a) (h1 : a ≤ 1) {vs : List Fl} {sp : Option Nat} (hl : vs.length = Color.count t)
    (h : Color.construct t vs c.alpha sp = ok c') : c'.malpha = fin a ∧ 0 ≤ a ∧ a ≤ 1 := by
  rw [construct_alpha htu hl h, if_pos ht, alpha_true hs hc ha, div255, show a * 255 / 255 = a by field_simp, clamp_unit h0 h1]
  exact ⟨rfl, h0, h1⟩

theorem alpha_down {s t : ColorType} (hs : Color.scalesAlpha s = false) (ht : Color.scalesAlpha t = true) (htu : t ≠ .undefined) {c c' : Color} {a : ℝ}
    (hc : IsColor s c) (ha : c.malpha = fin a) (h0 : 0 ≤ a) (h1 : a ≤ 1) {vs : List Fl} {sp : Option Nat} (hl : vs.length = Color.count t)
    (h : Color.construct t vs (round (c.alpha * 255)) sp = ok c') : c'.malpha = fin ((roundR (a * 255) : ℝ) / 255) ∧
      0 ≤ (roundR (a * 255) : ℝ) / 255 ∧ (roundR (a * 255) : ℝ) / 255 ≤ 1 := by
  have hb := round_unit h0 h1
  rw [construct_alpha htu hl h, if_pos ht, alpha_deep hs hc, ha]
  simp only [lit_def, mul_exact, round_fin]
  have := div255 (roundR (a * 255))
  simp only [lit_def] at this
  rw [this, clamp_unit hb.1 hb.2]
  exact ⟨rfl, hb⟩

theorem alpha_set {s t : ColorType} (hs : Color.scalesAlpha s = false) (ht : Color.scalesAlpha t = false) {c d : Color} {sp : Option Nat} {a : ℝ}
    (hc : IsColor s c) (hd : Fresh t sp d) (ha : c.malpha = fin a) (h0 : 0 ≤ a) (h1 : a ≤ 1) :
    (d.setAlpha c.alpha).malpha = fin a ∧ 0 ≤ a ∧ a ≤ 1 := by
  simp only [Color.setAlpha, hd.col.cls, ht, alpha_deep hs hc, ha]
  exact ⟨by simpa using clamp_unit h0 h1, h0, h1⟩

theorem AlphaMap.comp {s m : ColorType} {P : Color → Prop} {f g : World → Color → Outcome Color} {q q' r : ℝ → ℝ} (hf : AlphaMap s P f q)
    (hgood : Good s m f) (hg : AlphaMap m NotBlack g q') (hm : m ≠ .hsl) (hr : r = q' ∘ q) : AlphaMap s P (fun w c => f w c >>= g w) r := by
  intro w c c' a hc hp ha h0 h1 h
  obtain ⟨d, hd, he⟩ := bind_eq_ok.mp h
  obtain ⟨e1, e2, e3⟩ := hf w c d a hc hp ha h0 h1 hd
  have hcol := (hgood.result w c d hd).col
  subst hr
  exact hg w d c' _ hcol (fun hh => absurd (hcol.ctype.symm.trans hh) hm) e1 e2 e3 he

theorem a_rgb_true_to_rgb_deep : AlphaMap .rgbTrue NotBlack Val.rgb_true_to_rgb_deep (quant .rgbTrue .rgbDeep) := by
  intro w c c' a hc hp ha h0 h1 h
  change c'.malpha = fin (a) ∧ 0 ≤ a ∧ a ≤ 1
  simp only [Val.rgb_true_to_rgb_deep, Leaf.rgb_true_to_rgb_deep, Leaf.to_lch, Leaf.from_lch, Color.constructGrey, Outcome.bind_eq_ok] at h
  obtain ⟨_, _, _, _, _, _, h⟩ := h
  exact alpha_up rfl rfl (by simp) hc ha h0 h1 rfl h

theorem a_rgb_true_to_grey_true : AlphaMap .rgbTrue NotBlack Val.rgb_true_to_grey_true (quant .rgbTrue .greyTrue) := by
  intro w c c' a hc hp ha h0 h1 h
  change c'.malpha = fin (a) ∧ 0 ≤ a ∧ a ≤ 1
  simp only [Val.rgb_true_to_grey_true, Leaf.rgb_true_to_grey_true, Leaf.to_lch, Leaf.from_lch, Color.constructGrey, Outcome.bind_eq_ok] at h
  obtain ⟨_, _, _, _, _, _, h⟩ := h
  exact alpha_true_true rfl rfl (by simp) hc ha h0 h1 rfl h

theorem a_rgb_true_to_grey_deep : AlphaMap .rgbTrue NotBlack Val.rgb_true_to_grey_deep (quant .rgbTrue .greyDeep) := by
  intro w c c' a hc hp ha h0 h1 h
  change c'.malpha = fin (a) ∧ 0 ≤ a ∧ a ≤ 1
  simp only [Val.rgb_true_to_grey_deep, Leaf.grey_copy_to_deep, Outcome.bind_eq_ok] at h
  obtain ⟨g, hg, _, _, h⟩ := h
  have g1 := (g_rgb_true_to_grey_true.result w c g hg).col
  have g2 := (a_rgb_true_to_grey_true w c g a hc hp ha h0 h1 hg).1
  change g.malpha = fin a at g2
  have hcopy : IsColor .greyTrue g.copy := ⟨g1.cls, g1.ctype, g1.len, g1.maxv, g1.minv⟩
  have ha' : g.copy.malpha = fin a := by
    simp only [Color.copy, Color.setAlpha, g1.cls, Color.scalesAlpha, if_true, alpha_true rfl g1 g2, div255]
    rw [show a * 255 / 255 = a by field_simp, clamp_unit h0 h1]
  exact alpha_up rfl rfl (by simp) hcopy ha' h0 h1 rfl h

theorem a_rgb_deep_to_rgb_true : AlphaMap .rgbDeep NotBlack Val.rgb_deep_to_rgb_true (quant .rgbDeep .rgbTrue) := by
  intro w c c' a hc hp ha h0 h1 h
  change c'.malpha = fin ((roundR (a * 255) : ℝ) / 255) ∧ 0 ≤ (roundR (a * 255) : ℝ) / 255 ∧ (roundR (a * 255) : ℝ) / 255 ≤ 1
  simp only [Val.rgb_deep_to_rgb_true, Leaf.rgb_deep_to_rgb_true, Leaf.to_lch, Leaf.from_lch, Color.constructGrey, Outcome.bind_eq_ok] at h
  obtain ⟨_, _, _, _, _, _, h⟩ := h
  exact alpha_down rfl rfl (by simp) hc ha h0 h1 rfl h

theorem a_rgb_deep_to_grey_deep : AlphaMap .rgbDeep NotBlack Val.rgb_deep_to_grey_deep (quant .rgbDeep .greyDeep) := by
  intro w c c' a hc hp ha h0 h1 h
  change c'.malpha = fin (a) ∧ 0 ≤ a ∧ a ≤ 1
  simp only [Val.rgb_deep_to_grey_deep, Leaf.rgb_deep_to_grey_deep, Leaf.to_lch, Leaf.from_lch, Color.constructGrey, Outcome.bind_eq_ok] at h
  obtain ⟨_, _, _, _, _, _, h⟩ := h
  exact alpha_keep rfl rfl (by simp) hc ha h0 h1 rfl h

theorem a_rgb_deep_to_cmyk : AlphaMap .rgbDeep NotBlack Val.rgb_deep_to_cmyk (quant .rgbDeep .cmyk) := by
  intro w c c' a hc hp ha h0 h1 h
  change c'.malpha = fin (a) ∧ 0 ≤ a ∧ a ≤ 1
  simp only [Val.rgb_deep_to_cmyk, Leaf.rgb_deep_to_cmyk, Leaf.to_lch, Leaf.from_lch, Color.constructGrey, Outcome.bind_eq_ok] at h
  obtain ⟨_, _, _, _, _, _, h⟩ := h
  exact alpha_keep rfl rfl (by simp) hc ha h0 h1 rfl h

theorem a_rgb_deep_to_hsi : AlphaMap .rgbDeep NotBlack Val.rgb_deep_to_hsi (quant .rgbDeep .hsi) := by
  intro w c c' a hc hp ha h0 h1 h
  change c'.malpha = fin (a) ∧ 0 ≤ a ∧ a ≤ 1
  simp only [Val.rgb_deep_to_hsi, Leaf.rgb_deep_to_hsi, Leaf.to_lch, Leaf.from_lch, Color.constructGrey, Outcome.bind_eq_ok] at h
  obtain ⟨_, _, _, _, _, _, h⟩ := h
  split at h <;> exact alpha_keep rfl rfl (by simp) hc ha h0 h1 rfl h

theorem a_rgb_deep_to_hsv : AlphaMap .rgbDeep NotBlack Val.rgb_deep_to_hsv (quant .rgbDeep .hsv) := by
  intro w c c' a hc hp ha h0 h1 h
  change c'.malpha = fin (a) ∧ 0 ≤ a ∧ a ≤ 1
  simp only [Val.rgb_deep_to_hsv, Leaf.rgb_deep_to_hsv, Leaf.to_lch, Leaf.from_lch, Color.constructGrey, Outcome.bind_eq_ok] at h
  obtain ⟨_, _, _, _, _, _, h⟩ := h
  split at h <;> exact alpha_keep rfl rfl (by simp) hc ha h0 h1 rfl h

theorem a_rgb_deep_to_hsl : AlphaMap .rgbDeep NotBlack Val.rgb_deep_to_hsl (quant .rgbDeep .hsl) := by
  intro w c c' a hc hp ha h0 h1 h
  change c'.malpha = fin (a) ∧ 0 ≤ a ∧ a ≤ 1
  simp only [Val.rgb_deep_to_hsl, Leaf.rgb_deep_to_hsl, Leaf.to_lch, Leaf.from_lch, Color.constructGrey, Outcome.bind_eq_ok] at h
  obtain ⟨_, _, _, _, _, _, h⟩ := h
  split at h <;> exact alpha_keep rfl rfl (by simp) hc ha h0 h1 rfl h

theorem a_rgb_deep_to_hcy : AlphaMap .rgbDeep NotBlack Val.rgb_deep_to_hcy (quant .rgbDeep .hcy) := by
  intro w c c' a hc hp ha h0 h1 h
  change c'.malpha = fin (a) ∧ 0 ≤ a ∧ a ≤ 1
  simp only [Val.rgb_deep_to_hcy, Leaf.rgb_deep_to_hcy, Leaf.to_lch, Leaf.from_lch, Color.constructGrey, Outcome.bind_eq_ok] at h
  obtain ⟨_, _, _, _, _, _, h⟩ := h
  split at h <;> exact alpha_keep rfl rfl (by simp) hc ha h0 h1 rfl h

theorem a_rgb_deep_to_xyz : AlphaMap .rgbDeep NotBlack Val.rgb_deep_to_xyz (quant .rgbDeep .xyz) := by
  intro w c c' a hc hp ha h0 h1 h
  change c'.malpha = fin (a) ∧ 0 ≤ a ∧ a ≤ 1
  simp only [Val.rgb_deep_to_xyz, Leaf.linear_to_xyz, Leaf.inverseGamma, Outcome.bind_eq_ok, ok_inj] at h
  obtain ⟨_, ⟨_, _, _, _, rfl⟩, _, _, _, _, _, _, _, _, _, _, h⟩ := h
  exact alpha_keep rfl rfl (by simp) hc ha h0 h1 rfl h

theorem a_grey_true_to_rgb_true : AlphaMap .greyTrue NotBlack Val.grey_true_to_rgb_true (quant .greyTrue .rgbTrue) := by
  intro w c c' a hc hp ha h0 h1 h
  change c'.malpha = fin (a) ∧ 0 ≤ a ∧ a ≤ 1
  simp only [Val.grey_true_to_rgb_true, Leaf.grey_true_to_rgb_true, Leaf.to_lch, Leaf.from_lch, Color.constructGrey, Outcome.bind_eq_ok] at h
  obtain ⟨_, _, h⟩ := h
  exact alpha_true_true rfl rfl (by simp) hc ha h0 h1 rfl h

theorem a_grey_true_to_rgb_deep : AlphaMap .greyTrue NotBlack Val.grey_true_to_rgb_deep (quant .greyTrue .rgbDeep) := by
  intro w c c' a hc hp ha h0 h1 h
  change c'.malpha = fin (a) ∧ 0 ≤ a ∧ a ≤ 1
  simp only [Val.grey_true_to_rgb_deep, Leaf.grey_true_to_rgb_deep, Leaf.to_lch, Leaf.from_lch, Color.constructGrey, Outcome.bind_eq_ok] at h
  obtain ⟨_, _, h⟩ := h
  exact alpha_up rfl rfl (by simp) hc ha h0 h1 rfl h

theorem a_grey_true_to_grey_deep : AlphaMap .greyTrue NotBlack Val.grey_true_to_grey_deep (quant .greyTrue .greyDeep) := by
  intro w c c' a hc hp ha h0 h1 h
  change c'.malpha = fin (a) ∧ 0 ≤ a ∧ a ≤ 1
  simp only [Val.grey_true_to_grey_deep, Leaf.grey_true_to_grey_deep, Leaf.to_lch, Leaf.from_lch, Color.constructGrey, Outcome.bind_eq_ok] at h
  obtain ⟨_, _, h⟩ := h
  exact alpha_up rfl rfl (by simp) hc ha h0 h1 rfl h

theorem a_grey_deep_to_rgb_true : AlphaMap .greyDeep NotBlack Val.grey_deep_to_rgb_true (quant .greyDeep .rgbTrue) := by
  intro w c c' a hc hp ha h0 h1 h
  change c'.malpha = fin ((roundR (a * 255) : ℝ) / 255) ∧ 0 ≤ (roundR (a * 255) : ℝ) / 255 ∧ (roundR (a * 255) : ℝ) / 255 ≤ 1
  simp only [Val.grey_deep_to_rgb_true, Leaf.grey_deep_to_rgb_true, Leaf.to_lch, Leaf.from_lch, Color.constructGrey, Outcome.bind_eq_ok] at h
  obtain ⟨_, _, h⟩ := h
  exact alpha_down rfl rfl (by simp) hc ha h0 h1 rfl h

theorem a_grey_deep_to_rgb_deep : AlphaMap .greyDeep NotBlack Val.grey_deep_to_rgb_deep (quant .greyDeep .rgbDeep) := by
  intro w c c' a hc hp ha h0 h1 h
  change c'.malpha = fin (a) ∧ 0 ≤ a ∧ a ≤ 1
  simp only [Val.grey_deep_to_rgb_deep, Leaf.grey_deep_to_rgb_deep, Leaf.to_lch, Leaf.from_lch, Color.constructGrey, Outcome.bind_eq_ok] at h
  obtain ⟨_, _, h⟩ := h
  exact alpha_keep rfl rfl (by simp) hc ha h0 h1 rfl h

theorem a_grey_deep_to_grey_true : AlphaMap .greyDeep NotBlack Val.grey_deep_to_grey_true (quant .greyDeep .greyTrue) := by
  intro w c c' a hc hp ha h0 h1 h
  change c'.malpha = fin ((roundR (a * 255) : ℝ) / 255) ∧ 0 ≤ (roundR (a * 255) : ℝ) / 255 ∧ (roundR (a * 255) : ℝ) / 255 ≤ 1
  simp only [Val.grey_deep_to_grey_true, Leaf.grey_deep_to_grey_true, Leaf.to_lch, Leaf.from_lch, Color.constructGrey, Outcome.bind_eq_ok] at h
  obtain ⟨_, _, h⟩ := h
  exact alpha_down rfl rfl (by simp) hc ha h0 h1 rfl h

theorem a_cmyk_to_rgb_deep : AlphaMap .cmyk NotBlack Val.cmyk_to_rgb_deep (quant .cmyk .rgbDeep) := by
  intro w c c' a hc hp ha h0 h1 h
  change c'.malpha = fin (a) ∧ 0 ≤ a ∧ a ≤ 1
  simp only [Val.cmyk_to_rgb_deep, Leaf.cmyk_to_rgb_deep, Leaf.to_lch, Leaf.from_lch, Color.constructGrey, Outcome.bind_eq_ok] at h
  obtain ⟨_, _, _, _, _, _, _, _, h⟩ := h
  exact alpha_keep rfl rfl (by simp) hc ha h0 h1 rfl h

theorem a_hsi_to_rgb_deep : AlphaMap .hsi NotBlack Val.hsi_to_rgb_deep (quant .hsi .rgbDeep) := by
  intro w c c' a hc hp ha h0 h1 h
  change c'.malpha = fin (a) ∧ 0 ≤ a ∧ a ≤ 1
  simp only [Val.hsi_to_rgb_deep, Leaf.hsi_to_rgb_deep, Color.constructGrey, Outcome.bind_eq_ok] at h
  obtain ⟨_, _, _, _, _, _, h⟩ := h
  split at h
  · exact alpha_keep rfl rfl (by simp) hc ha h0 h1 rfl h
  · exact alpha_keep rfl rfl (by simp) hc ha h0 h1 (sector_length _ _ _) h

theorem a_hsv_to_rgb_deep : AlphaMap .hsv NotBlack Val.hsv_to_rgb_deep (quant .hsv .rgbDeep) := by
  intro w c c' a hc hp ha h0 h1 h
  change c'.malpha = fin (a) ∧ 0 ≤ a ∧ a ≤ 1
  simp only [Val.hsv_to_rgb_deep, Leaf.hsv_to_rgb_deep, Leaf.to_lch, Leaf.from_lch, Color.constructGrey, Outcome.bind_eq_ok] at h
  obtain ⟨_, _, _, _, _, _, h⟩ := h
  exact alpha_keep rfl rfl (by simp) hc ha h0 h1 rfl h

theorem a_hsv_to_hsl : AlphaMap .hsv NotBlack Val.hsv_to_hsl (quant .hsv .hsl) := by
  intro w c c' a hc hp ha h0 h1 h
  change c'.malpha = fin (a) ∧ 0 ≤ a ∧ a ≤ 1
  simp only [Val.hsv_to_hsl, Leaf.hsv_to_hsl, Leaf.to_lch, Leaf.from_lch, Color.constructGrey, Outcome.bind_eq_ok] at h
  obtain ⟨_, _, _, _, _, _, h⟩ := h
  exact alpha_keep rfl rfl (by simp) hc ha h0 h1 rfl h

theorem a_hsl_to_rgb_deep : AlphaMap .hsl NotBlack Val.hsl_to_rgb_deep (quant .hsl .rgbDeep) := by
  intro w c c' a hc hp ha h0 h1 h
  change c'.malpha = fin (a) ∧ 0 ≤ a ∧ a ≤ 1
  simp only [Val.hsl_to_rgb_deep, Leaf.hsl_to_rgb_deep, Leaf.to_lch, Leaf.from_lch, Color.constructGrey, Outcome.bind_eq_ok] at h
  obtain ⟨_, _, _, _, l, hl, h⟩ := h
  rw [if_neg (hp hc.ctype l (getComponent_ok hl).2)] at h
  exact alpha_keep rfl rfl (by simp) hc ha h0 h1 rfl h

theorem a_hsl_to_hsv : AlphaMap .hsl NotBlack Val.hsl_to_hsv (quant .hsl .hsv) := by
  intro w c c' a hc hp ha h0 h1 h
  change c'.malpha = fin (a) ∧ 0 ≤ a ∧ a ≤ 1
  simp only [Val.hsl_to_hsv, Leaf.hsl_to_hsv, Leaf.to_lch, Leaf.from_lch, Color.constructGrey, Outcome.bind_eq_ok] at h
  obtain ⟨_, _, _, _, _, _, h⟩ := h
  exact alpha_keep rfl rfl (by simp) hc ha h0 h1 rfl h

theorem a_hcy_to_rgb_deep : AlphaMap .hcy NotBlack Val.hcy_to_rgb_deep (quant .hcy .rgbDeep) := by
  intro w c c' a hc hp ha h0 h1 h
  change c'.malpha = fin (a) ∧ 0 ≤ a ∧ a ≤ 1
  simp only [Val.hcy_to_rgb_deep, Leaf.hcy_to_rgb_deep, Leaf.to_lch, Leaf.from_lch, Color.constructGrey, Outcome.bind_eq_ok] at h
  obtain ⟨_, _, _, _, _, _, h⟩ := h
  exact alpha_keep rfl rfl (by simp) hc ha h0 h1 rfl h

theorem a_xyz_to_rgb_deep : AlphaMap .xyz NotBlack Val.xyz_to_rgb_deep (quant .xyz .rgbDeep) := by
  intro w c c' a hc hp ha h0 h1 h
  change c'.malpha = fin (a) ∧ 0 ≤ a ∧ a ≤ 1
  simp only [Val.xyz_to_rgb_deep, Leaf.xyz_to_rgb_deep, Leaf.forwardGamma, Outcome.bind_eq_ok, ok_inj] at h
  obtain ⟨_, _, _, _, _, _, _, _, _, _, d, hd, _, _, d1, h1', _, _, d2, h2, _, _, d3, h3, _, _, _, _, rfl⟩ := h
  have := alpha_keep (t := .rgbDeep) rfl rfl (by simp) hc ha h0 h1 rfl hd
  refine ⟨?_, h0, h1⟩
  change d3.malpha = _
  rw [(ObjectLemmas.setChannel_frame h3).2.2.1, (ObjectLemmas.setChannel_frame h2).2.2.1, (ObjectLemmas.setChannel_frame h1').2.2.1, this.1]

theorem a_xyz_to_xyy : AlphaMap .xyz NotBlack Val.xyz_to_xyy (quant .xyz .xyy) := by
  intro w c c' a hc hp ha h0 h1 h
  change c'.malpha = fin (a) ∧ 0 ≤ a ∧ a ≤ 1
  simp only [Val.xyz_to_xyy, Leaf.xyz_to_xyy, Leaf.to_lch, Leaf.from_lch, Color.constructGrey, Outcome.bind_eq_ok] at h
  obtain ⟨_, _, _, _, _, _, h⟩ := h
  split at h
  · simp only [Outcome.bind_eq_ok] at h
    obtain ⟨_, _, _, _, h⟩ := h
    exact alpha_keep rfl rfl (by simp) hc ha h0 h1 rfl h
  · exact alpha_keep rfl rfl (by simp) hc ha h0 h1 rfl h

theorem a_xyz_to_cieluv : AlphaMap .xyz NotBlack Val.xyz_to_cieluv (quant .xyz .cieluv) := by
  intro w c c' a hc hp ha h0 h1 h
  change c'.malpha = fin (a) ∧ 0 ≤ a ∧ a ≤ 1
  simp only [Val.xyz_to_cieluv, Leaf.xyz_to_cieluv, Leaf.to_lch, Leaf.from_lch, Color.constructGrey, Outcome.bind_eq_ok] at h
  obtain ⟨_, _, _, _, _, _, _, _, _, _, h⟩ := h
  exact alpha_keep rfl rfl (by simp) hc ha h0 h1 rfl h

theorem a_xyz_to_lab : AlphaMap .xyz NotBlack Val.xyz_to_lab (quant .xyz .lab) := by
  intro w c c' a hc hp ha h0 h1 h
  change c'.malpha = fin (a) ∧ 0 ≤ a ∧ a ≤ 1
  simp only [Val.xyz_to_lab, Leaf.xyz_to_lab, Leaf.to_lch, Leaf.from_lch, Color.constructGrey, Outcome.bind_eq_ok] at h
  obtain ⟨_, _, _, _, _, _, _, _, _, _, d, hd, h⟩ := h
  rw [ok_inj] at h
  subst h
  exact alpha_set rfl rfl hc (construct_result (by simp) rfl hd) ha h0 h1

theorem a_xyy_to_xyz : AlphaMap .xyy NotBlack Val.xyy_to_xyz (quant .xyy .xyz) := by
  intro w c c' a hc hp ha h0 h1 h
  change c'.malpha = fin (a) ∧ 0 ≤ a ∧ a ≤ 1
  simp only [Val.xyy_to_xyz, Leaf.xyy_to_xyz, Leaf.to_lch, Leaf.from_lch, Color.constructGrey, Outcome.bind_eq_ok] at h
  obtain ⟨_, _, _, _, _, _, h⟩ := h
  split at h <;> exact alpha_keep rfl rfl (by simp) hc ha h0 h1 rfl h

theorem a_cieluv_to_xyz : AlphaMap .cieluv NotBlack Val.cieluv_to_xyz (quant .cieluv .xyz) := by
  intro w c c' a hc hp ha h0 h1 h
  change c'.malpha = fin (a) ∧ 0 ≤ a ∧ a ≤ 1
  simp only [Val.cieluv_to_xyz, Leaf.cieluv_to_xyz, Leaf.to_lch, Leaf.from_lch, Color.constructGrey, Outcome.bind_eq_ok] at h
  obtain ⟨_, _, _, _, _, _, _, _, _, _, h⟩ := h
  exact alpha_keep rfl rfl (by simp) hc ha h0 h1 rfl h

theorem a_cieluv_to_lch_uv : AlphaMap .cieluv NotBlack Val.cieluv_to_lch_uv (quant .cieluv .lchUv) := by
  intro w c c' a hc hp ha h0 h1 h
  change c'.malpha = fin (a) ∧ 0 ≤ a ∧ a ≤ 1
  simp only [Val.cieluv_to_lch_uv, Leaf.cieluv_to_lch_uv, Leaf.to_lch, Leaf.from_lch, Color.constructGrey, Outcome.bind_eq_ok] at h
  obtain ⟨_, _, _, _, _, _, d, hd, h⟩ := h
  rw [ok_inj] at h
  subst h
  exact alpha_set rfl rfl hc (construct_result (by simp) rfl hd) ha h0 h1

theorem a_lab_to_xyz : AlphaMap .lab NotBlack Val.lab_to_xyz (quant .lab .xyz) := by
  intro w c c' a hc hp ha h0 h1 h
  change c'.malpha = fin (a) ∧ 0 ≤ a ∧ a ≤ 1
  simp only [Val.lab_to_xyz, Leaf.lab_to_xyz, Leaf.to_lch, Leaf.from_lch, Color.constructGrey, Outcome.bind_eq_ok] at h
  obtain ⟨_, _, _, _, _, _, _, _, _, _, d, hd, h⟩ := h
  rw [ok_inj] at h
  subst h
  exact alpha_set rfl rfl hc (construct_result (by simp) rfl hd) ha h0 h1

theorem a_lab_to_lch_ab : AlphaMap .lab NotBlack Val.lab_to_lch_ab (quant .lab .lchAb) := by
  intro w c c' a hc hp ha h0 h1 h
  change c'.malpha = fin (a) ∧ 0 ≤ a ∧ a ≤ 1
  simp only [Val.lab_to_lch_ab, Leaf.lab_to_lch_ab, Leaf.to_lch, Leaf.from_lch, Color.constructGrey, Outcome.bind_eq_ok] at h
  obtain ⟨_, _, _, _, _, _, d, hd, h⟩ := h
  rw [ok_inj] at h
  subst h
  exact alpha_set rfl rfl hc (construct_result (by simp) rfl hd) ha h0 h1

theorem a_lch_ab_to_lab : AlphaMap .lchAb NotBlack Val.lch_ab_to_lab (quant .lchAb .lab) := by
  intro w c c' a hc hp ha h0 h1 h
  change c'.malpha = fin (a) ∧ 0 ≤ a ∧ a ≤ 1
  simp only [Val.lch_ab_to_lab, Leaf.lch_ab_to_lab, Leaf.to_lch, Leaf.from_lch, Color.constructGrey, Outcome.bind_eq_ok] at h
  obtain ⟨_, _, _, _, _, _, d, hd, h⟩ := h
  rw [ok_inj] at h
  subst h
  exact alpha_set rfl rfl hc (construct_result (by simp) rfl hd) ha h0 h1

theorem a_lch_uv_to_cieluv : AlphaMap .lchUv NotBlack Val.lch_uv_to_cieluv (quant .lchUv .cieluv) := by
  intro w c c' a hc hp ha h0 h1 h
  change c'.malpha = fin (a) ∧ 0 ≤ a ∧ a ≤ 1
  simp only [Val.lch_uv_to_cieluv, Leaf.lch_uv_to_cieluv, Leaf.to_lch, Leaf.from_lch, Color.constructGrey, Outcome.bind_eq_ok] at h
  obtain ⟨_, _, _, _, _, _, d, hd, h⟩ := h
  rw [ok_inj] at h
  subst h
  exact alpha_set rfl rfl hc (construct_result (by simp) rfl hd) ha h0 h1

theorem a_rgb_true_to_cmyk : AlphaMap .rgbTrue NotBlack Val.rgb_true_to_cmyk (quant .rgbTrue .cmyk) := AlphaMap.comp a_rgb_true_to_rgb_deep g_rgb_true_to_rgb_deep a_rgb_deep_to_cmyk (by simp) rfl
theorem a_rgb_true_to_hsi : AlphaMap .rgbTrue NotBlack Val.rgb_true_to_hsi (quant .rgbTrue .hsi) := AlphaMap.comp a_rgb_true_to_rgb_deep g_rgb_true_to_rgb_deep a_rgb_deep_to_hsi (by simp) rfl
theorem a_rgb_true_to_hsv : AlphaMap .rgbTrue NotBlack Val.rgb_true_to_hsv (quant .rgbTrue .hsv) := AlphaMap.comp a_rgb_true_to_rgb_deep g_rgb_true_to_rgb_deep a_rgb_deep_to_hsv (by simp) rfl
theorem a_rgb_true_to_hsl : AlphaMap .rgbTrue NotBlack Val.rgb_true_to_hsl (quant .rgbTrue .hsl) := AlphaMap.comp a_rgb_true_to_rgb_deep g_rgb_true_to_rgb_deep a_rgb_deep_to_hsl (by simp) rfl
theorem a_rgb_true_to_hcy : AlphaMap .rgbTrue NotBlack Val.rgb_true_to_hcy (quant .rgbTrue .hcy) := AlphaMap.comp a_rgb_true_to_rgb_deep g_rgb_true_to_rgb_deep a_rgb_deep_to_hcy (by simp) rfl
theorem a_rgb_true_to_xyz : AlphaMap .rgbTrue NotBlack Val.rgb_true_to_xyz (quant .rgbTrue .xyz) := AlphaMap.comp a_rgb_true_to_rgb_deep g_rgb_true_to_rgb_deep a_rgb_deep_to_xyz (by simp) rfl
theorem a_rgb_true_to_xyy : AlphaMap .rgbTrue NotBlack Val.rgb_true_to_xyy (quant .rgbTrue .xyy) := AlphaMap.comp a_rgb_true_to_xyz g_rgb_true_to_xyz a_xyz_to_xyy (by simp) rfl
theorem a_rgb_true_to_cieluv : AlphaMap .rgbTrue NotBlack Val.rgb_true_to_cieluv (quant .rgbTrue .cieluv) := AlphaMap.comp a_rgb_true_to_xyz g_rgb_true_to_xyz a_xyz_to_cieluv (by simp) rfl
theorem a_rgb_deep_to_lab : AlphaMap .rgbDeep NotBlack Val.rgb_deep_to_lab (quant .rgbDeep .lab) := AlphaMap.comp a_rgb_deep_to_xyz g_rgb_deep_to_xyz a_xyz_to_lab (by simp) rfl
theorem a_rgb_true_to_lab : AlphaMap .rgbTrue NotBlack Val.rgb_true_to_lab (quant .rgbTrue .lab) := AlphaMap.comp a_rgb_true_to_rgb_deep g_rgb_true_to_rgb_deep a_rgb_deep_to_lab (by simp) rfl
theorem a_rgb_true_to_lch_ab : AlphaMap .rgbTrue NotBlack Val.rgb_true_to_lch_ab (quant .rgbTrue .lchAb) := AlphaMap.comp a_rgb_true_to_lab g_rgb_true_to_lab a_lab_to_lch_ab (by simp) rfl
theorem a_rgb_true_to_lch_uv : AlphaMap .rgbTrue NotBlack Val.rgb_true_to_lch_uv (quant .rgbTrue .lchUv) := AlphaMap.comp a_rgb_true_to_cieluv g_rgb_true_to_cieluv a_cieluv_to_lch_uv (by simp) rfl
theorem a_rgb_deep_to_grey_true : AlphaMap .rgbDeep NotBlack Val.rgb_deep_to_grey_true (quant .rgbDeep .greyTrue) := AlphaMap.comp a_rgb_deep_to_rgb_true g_rgb_deep_to_rgb_true a_rgb_true_to_grey_true (by simp) rfl
theorem a_rgb_deep_to_xyy : AlphaMap .rgbDeep NotBlack Val.rgb_deep_to_xyy (quant .rgbDeep .xyy) := AlphaMap.comp a_rgb_deep_to_xyz g_rgb_deep_to_xyz a_xyz_to_xyy (by simp) rfl
theorem a_rgb_deep_to_cieluv : AlphaMap .rgbDeep NotBlack Val.rgb_deep_to_cieluv (quant .rgbDeep .cieluv) := AlphaMap.comp a_rgb_deep_to_xyz g_rgb_deep_to_xyz a_xyz_to_cieluv (by simp) rfl
theorem a_rgb_deep_to_lch_ab : AlphaMap .rgbDeep NotBlack Val.rgb_deep_to_lch_ab (quant .rgbDeep .lchAb) := AlphaMap.comp a_rgb_deep_to_lab g_rgb_deep_to_lab a_lab_to_lch_ab (by simp) rfl
theorem a_rgb_deep_to_lch_uv : AlphaMap .rgbDeep NotBlack Val.rgb_deep_to_lch_uv (quant .rgbDeep .lchUv) := AlphaMap.comp a_rgb_deep_to_cieluv g_rgb_deep_to_cieluv a_cieluv_to_lch_uv (by simp) rfl
theorem a_grey_true_to_cmyk : AlphaMap .greyTrue NotBlack Val.grey_true_to_cmyk (quant .greyTrue .cmyk) := AlphaMap.comp a_grey_true_to_rgb_deep g_grey_true_to_rgb_deep a_rgb_deep_to_cmyk (by simp) rfl
theorem a_grey_true_to_hsi : AlphaMap .greyTrue NotBlack Val.grey_true_to_hsi (quant .greyTrue .hsi) := AlphaMap.comp a_grey_true_to_rgb_deep g_grey_true_to_rgb_deep a_rgb_deep_to_hsi (by simp) rfl
theorem a_grey_true_to_hsv : AlphaMap .greyTrue NotBlack Val.grey_true_to_hsv (quant .greyTrue .hsv) := AlphaMap.comp a_grey_true_to_rgb_deep g_grey_true_to_rgb_deep a_rgb_deep_to_hsv (by simp) rfl
theorem a_grey_true_to_hsl : AlphaMap .greyTrue NotBlack Val.grey_true_to_hsl (quant .greyTrue .hsl) := AlphaMap.comp a_grey_true_to_rgb_deep g_grey_true_to_rgb_deep a_rgb_deep_to_hsl (by simp) rfl
theorem a_grey_true_to_hcy : AlphaMap .greyTrue NotBlack Val.grey_true_to_hcy (quant .greyTrue .hcy) := AlphaMap.comp a_grey_true_to_rgb_deep g_grey_true_to_rgb_deep a_rgb_deep_to_hcy (by simp) rfl
theorem a_grey_true_to_xyz : AlphaMap .greyTrue NotBlack Val.grey_true_to_xyz (quant .greyTrue .xyz) := AlphaMap.comp a_grey_true_to_rgb_deep g_grey_true_to_rgb_deep a_rgb_deep_to_xyz (by simp) rfl
theorem a_grey_true_to_xyy : AlphaMap .greyTrue NotBlack Val.grey_true_to_xyy (quant .greyTrue .xyy) := AlphaMap.comp a_grey_true_to_xyz g_grey_true_to_xyz a_xyz_to_xyy (by simp) rfl
theorem a_grey_true_to_cieluv : AlphaMap .greyTrue NotBlack Val.grey_true_to_cieluv (quant .greyTrue .cieluv) := AlphaMap.comp a_grey_true_to_xyz g_grey_true_to_xyz a_xyz_to_cieluv (by simp) rfl
theorem a_grey_true_to_lab : AlphaMap .greyTrue NotBlack Val.grey_true_to_lab (quant .greyTrue .lab) := AlphaMap.comp a_grey_true_to_rgb_deep g_grey_true_to_rgb_deep a_rgb_deep_to_lab (by simp) rfl
theorem a_grey_true_to_lch_ab : AlphaMap .greyTrue NotBlack Val.grey_true_to_lch_ab (quant .greyTrue .lchAb) := AlphaMap.comp a_grey_true_to_lab g_grey_true_to_lab a_lab_to_lch_ab (by simp) rfl
theorem a_grey_true_to_lch_uv : AlphaMap .greyTrue NotBlack Val.grey_true_to_lch_uv (quant .greyTrue .lchUv) := AlphaMap.comp a_grey_true_to_cieluv g_grey_true_to_cieluv a_cieluv_to_lch_uv (by simp) rfl
theorem a_grey_deep_to_cmyk : AlphaMap .greyDeep NotBlack Val.grey_deep_to_cmyk (quant .greyDeep .cmyk) := AlphaMap.comp a_grey_deep_to_rgb_deep g_grey_deep_to_rgb_deep a_rgb_deep_to_cmyk (by simp) rfl
theorem a_grey_deep_to_hsi : AlphaMap .greyDeep NotBlack Val.grey_deep_to_hsi (quant .greyDeep .hsi) := AlphaMap.comp a_grey_deep_to_rgb_deep g_grey_deep_to_rgb_deep a_rgb_deep_to_hsi (by simp) rfl
theorem a_grey_deep_to_hsv : AlphaMap .greyDeep NotBlack Val.grey_deep_to_hsv (quant .greyDeep .hsv) := AlphaMap.comp a_grey_deep_to_rgb_deep g_grey_deep_to_rgb_deep a_rgb_deep_to_hsv (by simp) rfl
theorem a_grey_deep_to_hsl : AlphaMap .greyDeep NotBlack Val.grey_deep_to_hsl (quant .greyDeep .hsl) := AlphaMap.comp a_grey_deep_to_rgb_deep g_grey_deep_to_rgb_deep a_rgb_deep_to_hsl (by simp) rfl
theorem a_grey_deep_to_hcy : AlphaMap .greyDeep NotBlack Val.grey_deep_to_hcy (quant .greyDeep .hcy) := AlphaMap.comp a_grey_deep_to_rgb_deep g_grey_deep_to_rgb_deep a_rgb_deep_to_hcy (by simp) rfl
theorem a_grey_deep_to_xyz : AlphaMap .greyDeep NotBlack Val.grey_deep_to_xyz (quant .greyDeep .xyz) := AlphaMap.comp a_grey_deep_to_rgb_deep g_grey_deep_to_rgb_deep a_rgb_deep_to_xyz (by simp) rfl
theorem a_grey_deep_to_xyy : AlphaMap .greyDeep NotBlack Val.grey_deep_to_xyy (quant .greyDeep .xyy) := AlphaMap.comp a_grey_deep_to_xyz g_grey_deep_to_xyz a_xyz_to_xyy (by simp) rfl
theorem a_grey_deep_to_cieluv : AlphaMap .greyDeep NotBlack Val.grey_deep_to_cieluv (quant .greyDeep .cieluv) := AlphaMap.comp a_grey_deep_to_xyz g_grey_deep_to_xyz a_xyz_to_cieluv (by simp) rfl
theorem a_grey_deep_to_lab : AlphaMap .greyDeep NotBlack Val.grey_deep_to_lab (quant .greyDeep .lab) := AlphaMap.comp a_grey_deep_to_rgb_deep g_grey_deep_to_rgb_deep a_rgb_deep_to_lab (by simp) rfl
theorem a_grey_deep_to_lch_ab : AlphaMap .greyDeep NotBlack Val.grey_deep_to_lch_ab (quant .greyDeep .lchAb) := AlphaMap.comp a_grey_deep_to_lab g_grey_deep_to_lab a_lab_to_lch_ab (by simp) rfl
theorem a_grey_deep_to_lch_uv : AlphaMap .greyDeep NotBlack Val.grey_deep_to_lch_uv (quant .greyDeep .lchUv) := AlphaMap.comp a_grey_deep_to_cieluv g_grey_deep_to_cieluv a_cieluv_to_lch_uv (by simp) rfl
theorem a_cmyk_to_rgb_true : AlphaMap .cmyk NotBlack Val.cmyk_to_rgb_true (quant .cmyk .rgbTrue) := AlphaMap.comp a_cmyk_to_rgb_deep g_cmyk_to_rgb_deep a_rgb_deep_to_rgb_true (by simp) rfl
theorem a_cmyk_to_grey_true : AlphaMap .cmyk NotBlack Val.cmyk_to_grey_true (quant .cmyk .greyTrue) := AlphaMap.comp a_cmyk_to_rgb_deep g_cmyk_to_rgb_deep a_rgb_deep_to_grey_true (by simp) rfl
theorem a_cmyk_to_grey_deep : AlphaMap .cmyk NotBlack Val.cmyk_to_grey_deep (quant .cmyk .greyDeep) := AlphaMap.comp a_cmyk_to_rgb_deep g_cmyk_to_rgb_deep a_rgb_deep_to_grey_deep (by simp) rfl
theorem a_cmyk_to_hsi : AlphaMap .cmyk NotBlack Val.cmyk_to_hsi (quant .cmyk .hsi) := AlphaMap.comp a_cmyk_to_rgb_deep g_cmyk_to_rgb_deep a_rgb_deep_to_hsi (by simp) rfl
theorem a_cmyk_to_hsv : AlphaMap .cmyk NotBlack Val.cmyk_to_hsv (quant .cmyk .hsv) := AlphaMap.comp a_cmyk_to_rgb_deep g_cmyk_to_rgb_deep a_rgb_deep_to_hsv (by simp) rfl
theorem a_cmyk_to_hsl : AlphaMap .cmyk NotBlack Val.cmyk_to_hsl (quant .cmyk .hsl) := AlphaMap.comp a_cmyk_to_rgb_deep g_cmyk_to_rgb_deep a_rgb_deep_to_hsl (by simp) rfl
theorem a_cmyk_to_hcy : AlphaMap .cmyk NotBlack Val.cmyk_to_hcy (quant .cmyk .hcy) := AlphaMap.comp a_cmyk_to_rgb_deep g_cmyk_to_rgb_deep a_rgb_deep_to_hcy (by simp) rfl
theorem a_cmyk_to_xyz : AlphaMap .cmyk NotBlack Val.cmyk_to_xyz (quant .cmyk .xyz) := AlphaMap.comp a_cmyk_to_rgb_deep g_cmyk_to_rgb_deep a_rgb_deep_to_xyz (by simp) rfl
theorem a_cmyk_to_xyy : AlphaMap .cmyk NotBlack Val.cmyk_to_xyy (quant .cmyk .xyy) := AlphaMap.comp a_cmyk_to_xyz g_cmyk_to_xyz a_xyz_to_xyy (by simp) rfl
theorem a_cmyk_to_cieluv : AlphaMap .cmyk NotBlack Val.cmyk_to_cieluv (quant .cmyk .cieluv) := AlphaMap.comp a_cmyk_to_xyz g_cmyk_to_xyz a_xyz_to_cieluv (by simp) rfl
theorem a_cmyk_to_lab : AlphaMap .cmyk NotBlack Val.cmyk_to_lab (quant .cmyk .lab) := AlphaMap.comp a_cmyk_to_rgb_deep g_cmyk_to_rgb_deep a_rgb_deep_to_lab (by simp) rfl
theorem a_cmyk_to_lch_ab : AlphaMap .cmyk NotBlack Val.cmyk_to_lch_ab (quant .cmyk .lchAb) := AlphaMap.comp a_cmyk_to_lab g_cmyk_to_lab a_lab_to_lch_ab (by simp) rfl
theorem a_cmyk_to_lch_uv : AlphaMap .cmyk NotBlack Val.cmyk_to_lch_uv (quant .cmyk .lchUv) := AlphaMap.comp a_cmyk_to_cieluv g_cmyk_to_cieluv a_cieluv_to_lch_uv (by simp) rfl
theorem a_hsi_to_rgb_true : AlphaMap .hsi NotBlack Val.hsi_to_rgb_true (quant .hsi .rgbTrue) := AlphaMap.comp a_hsi_to_rgb_deep g_hsi_to_rgb_deep a_rgb_deep_to_rgb_true (by simp) rfl
theorem a_hsi_to_grey_true : AlphaMap .hsi NotBlack Val.hsi_to_grey_true (quant .hsi .greyTrue) := AlphaMap.comp a_hsi_to_rgb_deep g_hsi_to_rgb_deep a_rgb_deep_to_grey_true (by simp) rfl
theorem a_hsi_to_grey_deep : AlphaMap .hsi NotBlack Val.hsi_to_grey_deep (quant .hsi .greyDeep) := AlphaMap.comp a_hsi_to_rgb_deep g_hsi_to_rgb_deep a_rgb_deep_to_grey_deep (by simp) rfl
theorem a_hsi_to_cmyk : AlphaMap .hsi NotBlack Val.hsi_to_cmyk (quant .hsi .cmyk) := AlphaMap.comp a_hsi_to_rgb_deep g_hsi_to_rgb_deep a_rgb_deep_to_cmyk (by simp) rfl
theorem a_hsi_to_hsv : AlphaMap .hsi NotBlack Val.hsi_to_hsv (quant .hsi .hsv) := AlphaMap.comp a_hsi_to_rgb_deep g_hsi_to_rgb_deep a_rgb_deep_to_hsv (by simp) rfl
theorem a_hsi_to_hsl : AlphaMap .hsi NotBlack Val.hsi_to_hsl (quant .hsi .hsl) := AlphaMap.comp a_hsi_to_rgb_deep g_hsi_to_rgb_deep a_rgb_deep_to_hsl (by simp) rfl
theorem a_hsi_to_hcy : AlphaMap .hsi NotBlack Val.hsi_to_hcy (quant .hsi .hcy) := AlphaMap.comp a_hsi_to_rgb_deep g_hsi_to_rgb_deep a_rgb_deep_to_hcy (by simp) rfl
theorem a_hsi_to_xyz : AlphaMap .hsi NotBlack Val.hsi_to_xyz (quant .hsi .xyz) := AlphaMap.comp a_hsi_to_rgb_deep g_hsi_to_rgb_deep a_rgb_deep_to_xyz (by simp) rfl
theorem a_hsi_to_xyy : AlphaMap .hsi NotBlack Val.hsi_to_xyy (quant .hsi .xyy) := AlphaMap.comp a_hsi_to_rgb_deep g_hsi_to_rgb_deep a_rgb_deep_to_xyy (by simp) rfl
theorem a_hsi_to_cieluv : AlphaMap .hsi NotBlack Val.hsi_to_cieluv (quant .hsi .cieluv) := AlphaMap.comp a_hsi_to_rgb_deep g_hsi_to_rgb_deep a_rgb_deep_to_cieluv (by simp) rfl
theorem a_hsi_to_lab : AlphaMap .hsi NotBlack Val.hsi_to_lab (quant .hsi .lab) := AlphaMap.comp a_hsi_to_rgb_deep g_hsi_to_rgb_deep a_rgb_deep_to_lab (by simp) rfl
theorem a_hsi_to_lch_ab : AlphaMap .hsi NotBlack Val.hsi_to_lch_ab (quant .hsi .lchAb) := AlphaMap.comp a_hsi_to_rgb_deep g_hsi_to_rgb_deep a_rgb_deep_to_lch_ab (by simp) rfl
theorem a_hsi_to_lch_uv : AlphaMap .hsi NotBlack Val.hsi_to_lch_uv (quant .hsi .lchUv) := AlphaMap.comp a_hsi_to_rgb_deep g_hsi_to_rgb_deep a_rgb_deep_to_lch_uv (by simp) rfl
theorem a_hsv_to_rgb_true : AlphaMap .hsv NotBlack Val.hsv_to_rgb_true (quant .hsv .rgbTrue) := AlphaMap.comp a_hsv_to_rgb_deep g_hsv_to_rgb_deep a_rgb_deep_to_rgb_true (by simp) rfl
theorem a_hsv_to_grey_true : AlphaMap .hsv NotBlack Val.hsv_to_grey_true (quant .hsv .greyTrue) := AlphaMap.comp a_hsv_to_rgb_deep g_hsv_to_rgb_deep a_rgb_deep_to_grey_true (by simp) rfl
theorem a_hsv_to_grey_deep : AlphaMap .hsv NotBlack Val.hsv_to_grey_deep (quant .hsv .greyDeep) := AlphaMap.comp a_hsv_to_rgb_deep g_hsv_to_rgb_deep a_rgb_deep_to_grey_deep (by simp) rfl
theorem a_hsv_to_cmyk : AlphaMap .hsv NotBlack Val.hsv_to_cmyk (quant .hsv .cmyk) := AlphaMap.comp a_hsv_to_rgb_deep g_hsv_to_rgb_deep a_rgb_deep_to_cmyk (by simp) rfl
theorem a_hsv_to_hsi : AlphaMap .hsv NotBlack Val.hsv_to_hsi (quant .hsv .hsi) := AlphaMap.comp a_hsv_to_rgb_deep g_hsv_to_rgb_deep a_rgb_deep_to_hsi (by simp) rfl
theorem a_hsv_to_hcy : AlphaMap .hsv NotBlack Val.hsv_to_hcy (quant .hsv .hcy) := AlphaMap.comp a_hsv_to_rgb_deep g_hsv_to_rgb_deep a_rgb_deep_to_hcy (by simp) rfl
theorem a_hsv_to_xyz : AlphaMap .hsv NotBlack Val.hsv_to_xyz (quant .hsv .xyz) := AlphaMap.comp a_hsv_to_rgb_deep g_hsv_to_rgb_deep a_rgb_deep_to_xyz (by simp) rfl
theorem a_hsv_to_xyy : AlphaMap .hsv NotBlack Val.hsv_to_xyy (quant .hsv .xyy) := AlphaMap.comp a_hsv_to_xyz g_hsv_to_xyz a_xyz_to_xyy (by simp) rfl
theorem a_hsv_to_cieluv : AlphaMap .hsv NotBlack Val.hsv_to_cieluv (quant .hsv .cieluv) := AlphaMap.comp a_hsv_to_xyz g_hsv_to_xyz a_xyz_to_cieluv (by simp) rfl
theorem a_hsv_to_lab : AlphaMap .hsv NotBlack Val.hsv_to_lab (quant .hsv .lab) := AlphaMap.comp a_hsv_to_rgb_deep g_hsv_to_rgb_deep a_rgb_deep_to_lab (by simp) rfl
theorem a_hsv_to_lch_ab : AlphaMap .hsv NotBlack Val.hsv_to_lch_ab (quant .hsv .lchAb) := AlphaMap.comp a_hsv_to_lab g_hsv_to_lab a_lab_to_lch_ab (by simp) rfl
theorem a_hsv_to_lch_uv : AlphaMap .hsv NotBlack Val.hsv_to_lch_uv (quant .hsv .lchUv) := AlphaMap.comp a_hsv_to_cieluv g_hsv_to_cieluv a_cieluv_to_lch_uv (by simp) rfl
theorem a_hsl_to_rgb_true : AlphaMap .hsl NotBlack Val.hsl_to_rgb_true (quant .hsl .rgbTrue) := AlphaMap.comp a_hsl_to_rgb_deep g_hsl_to_rgb_deep a_rgb_deep_to_rgb_true (by simp) rfl
theorem a_hsl_to_grey_true : AlphaMap .hsl NotBlack Val.hsl_to_grey_true (quant .hsl .greyTrue) := AlphaMap.comp a_hsl_to_rgb_deep g_hsl_to_rgb_deep a_rgb_deep_to_grey_true (by simp) rfl
theorem a_hsl_to_grey_deep : AlphaMap .hsl NotBlack Val.hsl_to_grey_deep (quant .hsl .greyDeep) := AlphaMap.comp a_hsl_to_rgb_deep g_hsl_to_rgb_deep a_rgb_deep_to_grey_deep (by simp) rfl
theorem a_hsl_to_cmyk : AlphaMap .hsl NotBlack Val.hsl_to_cmyk (quant .hsl .cmyk) := AlphaMap.comp a_hsl_to_rgb_deep g_hsl_to_rgb_deep a_rgb_deep_to_cmyk (by simp) rfl
theorem a_hsl_to_hsi : AlphaMap .hsl NotBlack Val.hsl_to_hsi (quant .hsl .hsi) := AlphaMap.comp a_hsl_to_rgb_deep g_hsl_to_rgb_deep a_rgb_deep_to_hsi (by simp) rfl
theorem a_hsl_to_hcy : AlphaMap .hsl NotBlack Val.hsl_to_hcy (quant .hsl .hcy) := AlphaMap.comp a_hsl_to_rgb_deep g_hsl_to_rgb_deep a_rgb_deep_to_hcy (by simp) rfl
theorem a_hsl_to_xyz : AlphaMap .hsl NotBlack Val.hsl_to_xyz (quant .hsl .xyz) := AlphaMap.comp a_hsl_to_rgb_deep g_hsl_to_rgb_deep a_rgb_deep_to_xyz (by simp) rfl
theorem a_hsl_to_xyy : AlphaMap .hsl NotBlack Val.hsl_to_xyy (quant .hsl .xyy) := AlphaMap.comp a_hsl_to_xyz g_hsl_to_xyz a_xyz_to_xyy (by simp) rfl
theorem a_hsl_to_cieluv : AlphaMap .hsl NotBlack Val.hsl_to_cieluv (quant .hsl .cieluv) := AlphaMap.comp a_hsl_to_xyz g_hsl_to_xyz a_xyz_to_cieluv (by simp) rfl
theorem a_hsl_to_lab : AlphaMap .hsl NotBlack Val.hsl_to_lab (quant .hsl .lab) := AlphaMap.comp a_hsl_to_rgb_deep g_hsl_to_rgb_deep a_rgb_deep_to_lab (by simp) rfl
theorem a_hsl_to_lch_ab : AlphaMap .hsl NotBlack Val.hsl_to_lch_ab (quant .hsl .lchAb) := AlphaMap.comp a_hsl_to_lab g_hsl_to_lab a_lab_to_lch_ab (by simp) rfl
theorem a_hsl_to_lch_uv : AlphaMap .hsl NotBlack Val.hsl_to_lch_uv (quant .hsl .lchUv) := AlphaMap.comp a_hsl_to_cieluv g_hsl_to_cieluv a_cieluv_to_lch_uv (by simp) rfl
theorem a_hcy_to_rgb_true : AlphaMap .hcy NotBlack Val.hcy_to_rgb_true (quant .hcy .rgbTrue) := AlphaMap.comp a_hcy_to_rgb_deep g_hcy_to_rgb_deep a_rgb_deep_to_rgb_true (by simp) rfl
theorem a_hcy_to_grey_true : AlphaMap .hcy NotBlack Val.hcy_to_grey_true (quant .hcy .greyTrue) := AlphaMap.comp a_hcy_to_rgb_deep g_hcy_to_rgb_deep a_rgb_deep_to_grey_true (by simp) rfl
theorem a_hcy_to_grey_deep : AlphaMap .hcy NotBlack Val.hcy_to_grey_deep (quant .hcy .greyDeep) := AlphaMap.comp a_hcy_to_rgb_deep g_hcy_to_rgb_deep a_rgb_deep_to_grey_deep (by simp) rfl
theorem a_hcy_to_cmyk : AlphaMap .hcy NotBlack Val.hcy_to_cmyk (quant .hcy .cmyk) := AlphaMap.comp a_hcy_to_rgb_deep g_hcy_to_rgb_deep a_rgb_deep_to_cmyk (by simp) rfl
theorem a_hcy_to_hsi : AlphaMap .hcy NotBlack Val.hcy_to_hsi (quant .hcy .hsi) := AlphaMap.comp a_hcy_to_rgb_deep g_hcy_to_rgb_deep a_rgb_deep_to_hsi (by simp) rfl
theorem a_hcy_to_hsv : AlphaMap .hcy NotBlack Val.hcy_to_hsv (quant .hcy .hsv) := AlphaMap.comp a_hcy_to_rgb_deep g_hcy_to_rgb_deep a_rgb_deep_to_hsv (by simp) rfl
theorem a_hcy_to_hsl : AlphaMap .hcy NotBlack Val.hcy_to_hsl (quant .hcy .hsl) := AlphaMap.comp a_hcy_to_rgb_deep g_hcy_to_rgb_deep a_rgb_deep_to_hsl (by simp) rfl
theorem a_hcy_to_xyz : AlphaMap .hcy NotBlack Val.hcy_to_xyz (quant .hcy .xyz) := AlphaMap.comp a_hcy_to_rgb_deep g_hcy_to_rgb_deep a_rgb_deep_to_xyz (by simp) rfl
theorem a_hcy_to_xyy : AlphaMap .hcy NotBlack Val.hcy_to_xyy (quant .hcy .xyy) := AlphaMap.comp a_hcy_to_rgb_deep g_hcy_to_rgb_deep a_rgb_deep_to_xyy (by simp) rfl
theorem a_hcy_to_cieluv : AlphaMap .hcy NotBlack Val.hcy_to_cieluv (quant .hcy .cieluv) := AlphaMap.comp a_hcy_to_rgb_deep g_hcy_to_rgb_deep a_rgb_deep_to_cieluv (by simp) rfl
theorem a_hcy_to_lab : AlphaMap .hcy NotBlack Val.hcy_to_lab (quant .hcy .lab) := AlphaMap.comp a_hcy_to_rgb_deep g_hcy_to_rgb_deep a_rgb_deep_to_lab (by simp) rfl
theorem a_hcy_to_lch_ab : AlphaMap .hcy NotBlack Val.hcy_to_lch_ab (quant .hcy .lchAb) := AlphaMap.comp a_hcy_to_rgb_deep g_hcy_to_rgb_deep a_rgb_deep_to_lch_ab (by simp) rfl
theorem a_hcy_to_lch_uv : AlphaMap .hcy NotBlack Val.hcy_to_lch_uv (quant .hcy .lchUv) := AlphaMap.comp a_hcy_to_rgb_deep g_hcy_to_rgb_deep a_rgb_deep_to_lch_uv (by simp) rfl
theorem a_xyz_to_rgb_true : AlphaMap .xyz NotBlack Val.xyz_to_rgb_true (quant .xyz .rgbTrue) := AlphaMap.comp a_xyz_to_rgb_deep g_xyz_to_rgb_deep a_rgb_deep_to_rgb_true (by simp) rfl
theorem a_xyz_to_grey_true : AlphaMap .xyz NotBlack Val.xyz_to_grey_true (quant .xyz .greyTrue) := AlphaMap.comp a_xyz_to_rgb_deep g_xyz_to_rgb_deep a_rgb_deep_to_grey_true (by simp) rfl
theorem a_xyz_to_grey_deep : AlphaMap .xyz NotBlack Val.xyz_to_grey_deep (quant .xyz .greyDeep) := AlphaMap.comp a_xyz_to_rgb_deep g_xyz_to_rgb_deep a_rgb_deep_to_grey_deep (by simp) rfl
theorem a_xyz_to_cmyk : AlphaMap .xyz NotBlack Val.xyz_to_cmyk (quant .xyz .cmyk) := AlphaMap.comp a_xyz_to_rgb_deep g_xyz_to_rgb_deep a_rgb_deep_to_cmyk (by simp) rfl
theorem a_xyz_to_hsi : AlphaMap .xyz NotBlack Val.xyz_to_hsi (quant .xyz .hsi) := AlphaMap.comp a_xyz_to_rgb_deep g_xyz_to_rgb_deep a_rgb_deep_to_hsi (by simp) rfl
theorem a_xyz_to_hsv : AlphaMap .xyz NotBlack Val.xyz_to_hsv (quant .xyz .hsv) := AlphaMap.comp a_xyz_to_rgb_deep g_xyz_to_rgb_deep a_rgb_deep_to_hsv (by simp) rfl
theorem a_xyz_to_hsl : AlphaMap .xyz NotBlack Val.xyz_to_hsl (quant .xyz .hsl) := AlphaMap.comp a_xyz_to_rgb_deep g_xyz_to_rgb_deep a_rgb_deep_to_hsl (by simp) rfl
theorem a_xyz_to_hcy : AlphaMap .xyz NotBlack Val.xyz_to_hcy (quant .xyz .hcy) := AlphaMap.comp a_xyz_to_rgb_deep g_xyz_to_rgb_deep a_rgb_deep_to_hcy (by simp) rfl
theorem a_xyz_to_lch_ab : AlphaMap .xyz NotBlack Val.xyz_to_lch_ab (quant .xyz .lchAb) := AlphaMap.comp a_xyz_to_lab g_xyz_to_lab a_lab_to_lch_ab (by simp) rfl
theorem a_xyz_to_lch_uv : AlphaMap .xyz NotBlack Val.xyz_to_lch_uv (quant .xyz .lchUv) := AlphaMap.comp a_xyz_to_cieluv g_xyz_to_cieluv a_cieluv_to_lch_uv (by simp) rfl
theorem a_xyy_to_rgb_true : AlphaMap .xyy NotBlack Val.xyy_to_rgb_true (quant .xyy .rgbTrue) := AlphaMap.comp a_xyy_to_xyz g_xyy_to_xyz a_xyz_to_rgb_true (by simp) rfl
theorem a_xyy_to_rgb_deep : AlphaMap .xyy NotBlack Val.xyy_to_rgb_deep (quant .xyy .rgbDeep) := AlphaMap.comp a_xyy_to_xyz g_xyy_to_xyz a_xyz_to_rgb_deep (by simp) rfl
theorem a_xyy_to_grey_true : AlphaMap .xyy NotBlack Val.xyy_to_grey_true (quant .xyy .greyTrue) := AlphaMap.comp a_xyy_to_xyz g_xyy_to_xyz a_xyz_to_grey_true (by simp) rfl
theorem a_xyy_to_grey_deep : AlphaMap .xyy NotBlack Val.xyy_to_grey_deep (quant .xyy .greyDeep) := AlphaMap.comp a_xyy_to_xyz g_xyy_to_xyz a_xyz_to_grey_deep (by simp) rfl
theorem a_xyy_to_cmyk : AlphaMap .xyy NotBlack Val.xyy_to_cmyk (quant .xyy .cmyk) := AlphaMap.comp a_xyy_to_xyz g_xyy_to_xyz a_xyz_to_cmyk (by simp) rfl
theorem a_xyy_to_hsi : AlphaMap .xyy NotBlack Val.xyy_to_hsi (quant .xyy .hsi) := AlphaMap.comp a_xyy_to_xyz g_xyy_to_xyz a_xyz_to_hsi (by simp) rfl
theorem a_xyy_to_hsv : AlphaMap .xyy NotBlack Val.xyy_to_hsv (quant .xyy .hsv) := AlphaMap.comp a_xyy_to_xyz g_xyy_to_xyz a_xyz_to_hsv (by simp) rfl
theorem a_xyy_to_hsl : AlphaMap .xyy NotBlack Val.xyy_to_hsl (quant .xyy .hsl) := AlphaMap.comp a_xyy_to_xyz g_xyy_to_xyz a_xyz_to_hsl (by simp) rfl
theorem a_xyy_to_hcy : AlphaMap .xyy NotBlack Val.xyy_to_hcy (quant .xyy .hcy) := AlphaMap.comp a_xyy_to_xyz g_xyy_to_xyz a_xyz_to_hcy (by simp) rfl
theorem a_xyy_to_cieluv : AlphaMap .xyy NotBlack Val.xyy_to_cieluv (quant .xyy .cieluv) := AlphaMap.comp a_xyy_to_xyz g_xyy_to_xyz a_xyz_to_cieluv (by simp) rfl
theorem a_xyy_to_lab : AlphaMap .xyy NotBlack Val.xyy_to_lab (quant .xyy .lab) := AlphaMap.comp a_xyy_to_xyz g_xyy_to_xyz a_xyz_to_lab (by simp) rfl
theorem a_xyy_to_lch_ab : AlphaMap .xyy NotBlack Val.xyy_to_lch_ab (quant .xyy .lchAb) := AlphaMap.comp a_xyy_to_lab g_xyy_to_lab a_lab_to_lch_ab (by simp) rfl
theorem a_xyy_to_lch_uv : AlphaMap .xyy NotBlack Val.xyy_to_lch_uv (quant .xyy .lchUv) := AlphaMap.comp a_xyy_to_cieluv g_xyy_to_cieluv a_cieluv_to_lch_uv (by simp) rfl
theorem a_cieluv_to_rgb_true : AlphaMap .cieluv NotBlack Val.cieluv_to_rgb_true (quant .cieluv .rgbTrue) := AlphaMap.comp a_cieluv_to_xyz g_cieluv_to_xyz a_xyz_to_rgb_true (by simp) rfl
theorem a_cieluv_to_rgb_deep : AlphaMap .cieluv NotBlack Val.cieluv_to_rgb_deep (quant .cieluv .rgbDeep) := AlphaMap.comp a_cieluv_to_xyz g_cieluv_to_xyz a_xyz_to_rgb_deep (by simp) rfl
theorem a_cieluv_to_grey_true : AlphaMap .cieluv NotBlack Val.cieluv_to_grey_true (quant .cieluv .greyTrue) := AlphaMap.comp a_cieluv_to_xyz g_cieluv_to_xyz a_xyz_to_grey_true (by simp) rfl
theorem a_cieluv_to_grey_deep : AlphaMap .cieluv NotBlack Val.cieluv_to_grey_deep (quant .cieluv .greyDeep) := AlphaMap.comp a_cieluv_to_xyz g_cieluv_to_xyz a_xyz_to_grey_deep (by simp) rfl
theorem a_cieluv_to_cmyk : AlphaMap .cieluv NotBlack Val.cieluv_to_cmyk (quant .cieluv .cmyk) := AlphaMap.comp a_cieluv_to_xyz g_cieluv_to_xyz a_xyz_to_cmyk (by simp) rfl
theorem a_cieluv_to_hsi : AlphaMap .cieluv NotBlack Val.cieluv_to_hsi (quant .cieluv .hsi) := AlphaMap.comp a_cieluv_to_xyz g_cieluv_to_xyz a_xyz_to_hsi (by simp) rfl
theorem a_cieluv_to_hsv : AlphaMap .cieluv NotBlack Val.cieluv_to_hsv (quant .cieluv .hsv) := AlphaMap.comp a_cieluv_to_xyz g_cieluv_to_xyz a_xyz_to_hsv (by simp) rfl
theorem a_cieluv_to_hsl : AlphaMap .cieluv NotBlack Val.cieluv_to_hsl (quant .cieluv .hsl) := AlphaMap.comp a_cieluv_to_xyz g_cieluv_to_xyz a_xyz_to_hsl (by simp) rfl
theorem a_cieluv_to_hcy : AlphaMap .cieluv NotBlack Val.cieluv_to_hcy (quant .cieluv .hcy) := AlphaMap.comp a_cieluv_to_xyz g_cieluv_to_xyz a_xyz_to_hcy (by simp) rfl
theorem a_cieluv_to_xyy : AlphaMap .cieluv NotBlack Val.cieluv_to_xyy (quant .cieluv .xyy) := AlphaMap.comp a_cieluv_to_xyz g_cieluv_to_xyz a_xyz_to_xyy (by simp) rfl
theorem a_cieluv_to_lab : AlphaMap .cieluv NotBlack Val.cieluv_to_lab (quant .cieluv .lab) := AlphaMap.comp a_cieluv_to_xyz g_cieluv_to_xyz a_xyz_to_lab (by simp) rfl
theorem a_cieluv_to_lch_ab : AlphaMap .cieluv NotBlack Val.cieluv_to_lch_ab (quant .cieluv .lchAb) := AlphaMap.comp a_cieluv_to_lab g_cieluv_to_lab a_lab_to_lch_ab (by simp) rfl
theorem a_lab_to_rgb_true : AlphaMap .lab NotBlack Val.lab_to_rgb_true (quant .lab .rgbTrue) := AlphaMap.comp a_lab_to_xyz g_lab_to_xyz a_xyz_to_rgb_true (by simp) rfl
theorem a_lab_to_rgb_deep : AlphaMap .lab NotBlack Val.lab_to_rgb_deep (quant .lab .rgbDeep) := AlphaMap.comp a_lab_to_xyz g_lab_to_xyz a_xyz_to_rgb_deep (by simp) rfl
theorem a_lab_to_grey_true : AlphaMap .lab NotBlack Val.lab_to_grey_true (quant .lab .greyTrue) := AlphaMap.comp a_lab_to_xyz g_lab_to_xyz a_xyz_to_grey_true (by simp) rfl
theorem a_lab_to_grey_deep : AlphaMap .lab NotBlack Val.lab_to_grey_deep (quant .lab .greyDeep) := AlphaMap.comp a_lab_to_xyz g_lab_to_xyz a_xyz_to_grey_deep (by simp) rfl
theorem a_lab_to_cmyk : AlphaMap .lab NotBlack Val.lab_to_cmyk (quant .lab .cmyk) := AlphaMap.comp a_lab_to_xyz g_lab_to_xyz a_xyz_to_cmyk (by simp) rfl
theorem a_lab_to_hsi : AlphaMap .lab NotBlack Val.lab_to_hsi (quant .lab .hsi) := AlphaMap.comp a_lab_to_xyz g_lab_to_xyz a_xyz_to_hsi (by simp) rfl
theorem a_lab_to_hsv : AlphaMap .lab NotBlack Val.lab_to_hsv (quant .lab .hsv) := AlphaMap.comp a_lab_to_xyz g_lab_to_xyz a_xyz_to_hsv (by simp) rfl
theorem a_lab_to_hsl : AlphaMap .lab NotBlack Val.lab_to_hsl (quant .lab .hsl) := AlphaMap.comp a_lab_to_xyz g_lab_to_xyz a_xyz_to_hsl (by simp) rfl
theorem a_lab_to_hcy : AlphaMap .lab NotBlack Val.lab_to_hcy (quant .lab .hcy) := AlphaMap.comp a_lab_to_xyz g_lab_to_xyz a_xyz_to_hcy (by simp) rfl
theorem a_lab_to_xyy : AlphaMap .lab NotBlack Val.lab_to_xyy (quant .lab .xyy) := AlphaMap.comp a_lab_to_xyz g_lab_to_xyz a_xyz_to_xyy (by simp) rfl
theorem a_lab_to_cieluv : AlphaMap .lab NotBlack Val.lab_to_cieluv (quant .lab .cieluv) := AlphaMap.comp a_lab_to_xyz g_lab_to_xyz a_xyz_to_cieluv (by simp) rfl
theorem a_lab_to_lch_uv : AlphaMap .lab NotBlack Val.lab_to_lch_uv (quant .lab .lchUv) := AlphaMap.comp a_lab_to_cieluv g_lab_to_cieluv a_cieluv_to_lch_uv (by simp) rfl
theorem a_lch_ab_to_rgb_true : AlphaMap .lchAb NotBlack Val.lch_ab_to_rgb_true (quant .lchAb .rgbTrue) := AlphaMap.comp a_lch_ab_to_lab g_lch_ab_to_lab a_lab_to_rgb_true (by simp) rfl
theorem a_lch_ab_to_rgb_deep : AlphaMap .lchAb NotBlack Val.lch_ab_to_rgb_deep (quant .lchAb .rgbDeep) := AlphaMap.comp a_lch_ab_to_lab g_lch_ab_to_lab a_lab_to_rgb_deep (by simp) rfl
theorem a_lch_ab_to_grey_true : AlphaMap .lchAb NotBlack Val.lch_ab_to_grey_true (quant .lchAb .greyTrue) := AlphaMap.comp a_lch_ab_to_lab g_lch_ab_to_lab a_lab_to_grey_true (by simp) rfl
theorem a_lch_ab_to_grey_deep : AlphaMap .lchAb NotBlack Val.lch_ab_to_grey_deep (quant .lchAb .greyDeep) := AlphaMap.comp a_lch_ab_to_lab g_lch_ab_to_lab a_lab_to_grey_deep (by simp) rfl
theorem a_lch_ab_to_cmyk : AlphaMap .lchAb NotBlack Val.lch_ab_to_cmyk (quant .lchAb .cmyk) := AlphaMap.comp a_lch_ab_to_lab g_lch_ab_to_lab a_lab_to_cmyk (by simp) rfl
theorem a_lch_ab_to_hsi : AlphaMap .lchAb NotBlack Val.lch_ab_to_hsi (quant .lchAb .hsi) := AlphaMap.comp a_lch_ab_to_lab g_lch_ab_to_lab a_lab_to_hsi (by simp) rfl
theorem a_lch_ab_to_hsv : AlphaMap .lchAb NotBlack Val.lch_ab_to_hsv (quant .lchAb .hsv) := AlphaMap.comp a_lch_ab_to_lab g_lch_ab_to_lab a_lab_to_hsv (by simp) rfl
theorem a_lch_ab_to_hsl : AlphaMap .lchAb NotBlack Val.lch_ab_to_hsl (quant .lchAb .hsl) := AlphaMap.comp a_lch_ab_to_lab g_lch_ab_to_lab a_lab_to_hsl (by simp) rfl
theorem a_lch_ab_to_hcy : AlphaMap .lchAb NotBlack Val.lch_ab_to_hcy (quant .lchAb .hcy) := AlphaMap.comp a_lch_ab_to_lab g_lch_ab_to_lab a_lab_to_hcy (by simp) rfl
theorem a_lch_ab_to_xyz : AlphaMap .lchAb NotBlack Val.lch_ab_to_xyz (quant .lchAb .xyz) := AlphaMap.comp a_lch_ab_to_lab g_lch_ab_to_lab a_lab_to_xyz (by simp) rfl
theorem a_lch_ab_to_xyy : AlphaMap .lchAb NotBlack Val.lch_ab_to_xyy (quant .lchAb .xyy) := AlphaMap.comp a_lch_ab_to_lab g_lch_ab_to_lab a_lab_to_xyy (by simp) rfl
theorem a_lch_ab_to_cieluv : AlphaMap .lchAb NotBlack Val.lch_ab_to_cieluv (quant .lchAb .cieluv) := AlphaMap.comp a_lch_ab_to_lab g_lch_ab_to_lab a_lab_to_cieluv (by simp) rfl
theorem a_lch_ab_to_lch_uv : AlphaMap .lchAb NotBlack Val.lch_ab_to_lch_uv (quant .lchAb .lchUv) := AlphaMap.comp a_lch_ab_to_cieluv g_lch_ab_to_cieluv a_cieluv_to_lch_uv (by simp) rfl
theorem a_lch_uv_to_rgb_true : AlphaMap .lchUv NotBlack Val.lch_uv_to_rgb_true (quant .lchUv .rgbTrue) := AlphaMap.comp a_lch_uv_to_cieluv g_lch_uv_to_cieluv a_cieluv_to_rgb_true (by simp) rfl
theorem a_lch_uv_to_rgb_deep : AlphaMap .lchUv NotBlack Val.lch_uv_to_rgb_deep (quant .lchUv .rgbDeep) := AlphaMap.comp a_lch_uv_to_cieluv g_lch_uv_to_cieluv a_cieluv_to_rgb_deep (by simp) rfl
theorem a_lch_uv_to_grey_true : AlphaMap .lchUv NotBlack Val.lch_uv_to_grey_true (quant .lchUv .greyTrue) := AlphaMap.comp a_lch_uv_to_cieluv g_lch_uv_to_cieluv a_cieluv_to_grey_true (by simp) rfl
theorem a_lch_uv_to_grey_deep : AlphaMap .lchUv NotBlack Val.lch_uv_to_grey_deep (quant .lchUv .greyDeep) := AlphaMap.comp a_lch_uv_to_cieluv g_lch_uv_to_cieluv a_cieluv_to_grey_deep (by simp) rfl
theorem a_lch_uv_to_cmyk : AlphaMap .lchUv NotBlack Val.lch_uv_to_cmyk (quant .lchUv .cmyk) := AlphaMap.comp a_lch_uv_to_cieluv g_lch_uv_to_cieluv a_cieluv_to_cmyk (by simp) rfl
theorem a_lch_uv_to_hsi : AlphaMap .lchUv NotBlack Val.lch_uv_to_hsi (quant .lchUv .hsi) := AlphaMap.comp a_lch_uv_to_cieluv g_lch_uv_to_cieluv a_cieluv_to_hsi (by simp) rfl
theorem a_lch_uv_to_hsv : AlphaMap .lchUv NotBlack Val.lch_uv_to_hsv (quant .lchUv .hsv) := AlphaMap.comp a_lch_uv_to_cieluv g_lch_uv_to_cieluv a_cieluv_to_hsv (by simp) rfl
theorem a_lch_uv_to_hsl : AlphaMap .lchUv NotBlack Val.lch_uv_to_hsl (quant .lchUv .hsl) := AlphaMap.comp a_lch_uv_to_cieluv g_lch_uv_to_cieluv a_cieluv_to_hsl (by simp) rfl
theorem a_lch_uv_to_hcy : AlphaMap .lchUv NotBlack Val.lch_uv_to_hcy (quant .lchUv .hcy) := AlphaMap.comp a_lch_uv_to_cieluv g_lch_uv_to_cieluv a_cieluv_to_hcy (by simp) rfl
theorem a_lch_uv_to_xyz : AlphaMap .lchUv NotBlack Val.lch_uv_to_xyz (quant .lchUv .xyz) := AlphaMap.comp a_lch_uv_to_cieluv g_lch_uv_to_cieluv a_cieluv_to_xyz (by simp) rfl
theorem a_lch_uv_to_xyy : AlphaMap .lchUv NotBlack Val.lch_uv_to_xyy (quant .lchUv .xyy) := AlphaMap.comp a_lch_uv_to_cieluv g_lch_uv_to_cieluv a_cieluv_to_xyy (by simp) rfl
theorem a_lch_uv_to_lab : AlphaMap .lchUv NotBlack Val.lch_uv_to_lab (quant .lchUv .lab) := AlphaMap.comp a_lch_uv_to_cieluv g_lch_uv_to_cieluv a_cieluv_to_lab (by simp) rfl
theorem a_lch_uv_to_lch_ab : AlphaMap .lchUv NotBlack Val.lch_uv_to_lch_ab (quant .lchUv .lchAb) := AlphaMap.comp a_lch_uv_to_cieluv g_lch_uv_to_cieluv a_cieluv_to_lch_ab (by simp) rfl

theorem b_hsl_to_rgb_deep : AlphaMap .hsl Black Val.hsl_to_rgb_deep (fun _ => 0) := by
  intro w c c' a hc hp ha h0 h1 h
  simp only [Val.hsl_to_rgb_deep, Leaf.hsl_to_rgb_deep, Color.constructGrey, Outcome.bind_eq_ok] at h
  obtain ⟨_, _, _, _, l, hl, h⟩ := h
  have e := (getComponent_ok hl).2
  have : some l = some (0 : Fl) := by rw [← e]; exact hp
  rw [if_pos (by rw [Option.some.inj this]; simp)] at h
  refine ⟨?_, le_refl _, by norm_num⟩
  rw [construct_alpha (by simp) rfl h]
  simp [Color.scalesAlpha]

omit [FloatModel] [ExactModel] in
theorem quant_zero (s t : ColorType) : quant s t 0 = 0 := by
  unfold quant
  split
  · simp [roundR]; norm_num
  · rfl

theorem b_hsl_to_rgb_true : AlphaMap .hsl Black Val.hsl_to_rgb_true (fun _ => 0) := AlphaMap.comp b_hsl_to_rgb_deep g_hsl_to_rgb_deep a_rgb_deep_to_rgb_true (by simp) (by funext x; exact (quant_zero .rgbDeep .rgbTrue).symm)
theorem b_hsl_to_grey_true : AlphaMap .hsl Black Val.hsl_to_grey_true (fun _ => 0) := AlphaMap.comp b_hsl_to_rgb_deep g_hsl_to_rgb_deep a_rgb_deep_to_grey_true (by simp) (by funext x; exact (quant_zero .rgbDeep .greyTrue).symm)
theorem b_hsl_to_grey_deep : AlphaMap .hsl Black Val.hsl_to_grey_deep (fun _ => 0) := AlphaMap.comp b_hsl_to_rgb_deep g_hsl_to_rgb_deep a_rgb_deep_to_grey_deep (by simp) (by funext x; exact (quant_zero .rgbDeep .greyDeep).symm)
theorem b_hsl_to_cmyk : AlphaMap .hsl Black Val.hsl_to_cmyk (fun _ => 0) := AlphaMap.comp b_hsl_to_rgb_deep g_hsl_to_rgb_deep a_rgb_deep_to_cmyk (by simp) (by funext x; exact (quant_zero .rgbDeep .cmyk).symm)
theorem b_hsl_to_hsi : AlphaMap .hsl Black Val.hsl_to_hsi (fun _ => 0) := AlphaMap.comp b_hsl_to_rgb_deep g_hsl_to_rgb_deep a_rgb_deep_to_hsi (by simp) (by funext x; exact (quant_zero .rgbDeep .hsi).symm)
theorem b_hsl_to_hcy : AlphaMap .hsl Black Val.hsl_to_hcy (fun _ => 0) := AlphaMap.comp b_hsl_to_rgb_deep g_hsl_to_rgb_deep a_rgb_deep_to_hcy (by simp) (by funext x; exact (quant_zero .rgbDeep .hcy).symm)
theorem b_hsl_to_xyz : AlphaMap .hsl Black Val.hsl_to_xyz (fun _ => 0) := AlphaMap.comp b_hsl_to_rgb_deep g_hsl_to_rgb_deep a_rgb_deep_to_xyz (by simp) (by funext x; exact (quant_zero .rgbDeep .xyz).symm)
theorem b_hsl_to_xyy : AlphaMap .hsl Black Val.hsl_to_xyy (fun _ => 0) := AlphaMap.comp b_hsl_to_xyz g_hsl_to_xyz a_xyz_to_xyy (by simp) (by funext x; exact (quant_zero .xyz .xyy).symm)
theorem b_hsl_to_cieluv : AlphaMap .hsl Black Val.hsl_to_cieluv (fun _ => 0) := AlphaMap.comp b_hsl_to_xyz g_hsl_to_xyz a_xyz_to_cieluv (by simp) (by funext x; exact (quant_zero .xyz .cieluv).symm)
theorem b_hsl_to_lab : AlphaMap .hsl Black Val.hsl_to_lab (fun _ => 0) := AlphaMap.comp b_hsl_to_rgb_deep g_hsl_to_rgb_deep a_rgb_deep_to_lab (by simp) (by funext x; exact (quant_zero .rgbDeep .lab).symm)
theorem b_hsl_to_lch_ab : AlphaMap .hsl Black Val.hsl_to_lch_ab (fun _ => 0) := AlphaMap.comp b_hsl_to_lab g_hsl_to_lab a_lab_to_lch_ab (by simp) (by funext x; exact (quant_zero .lab .lchAb).symm)
theorem b_hsl_to_lch_uv : AlphaMap .hsl Black Val.hsl_to_lch_uv (fun _ => 0) := AlphaMap.comp b_hsl_to_cieluv g_hsl_to_cieluv a_cieluv_to_lch_uv (by simp) (by funext x; exact (quant_zero .cieluv .lchUv).symm)

theorem alpha_from_rgb_true (t : ColorType) (ht : t ≠ .undefined) (hst : .rgbTrue ≠ t) : AlphaMap .rgbTrue NotBlack (Val.conv .rgbTrue t) (quant .rgbTrue t) := by
  cases t
  case undefined => exact absurd rfl ht
  case rgbTrue => exact absurd rfl hst
  case rgbDeep => exact a_rgb_true_to_rgb_deep
  case greyTrue => exact a_rgb_true_to_grey_true
  case greyDeep => exact a_rgb_true_to_grey_deep
  case cmyk => exact a_rgb_true_to_cmyk
  case hsi => exact a_rgb_true_to_hsi
  case hsv => exact a_rgb_true_to_hsv
  case hsl => exact a_rgb_true_to_hsl
  case hcy => exact a_rgb_true_to_hcy
  case xyz => exact a_rgb_true_to_xyz
  case xyy => exact a_rgb_true_to_xyy
  case cieluv => exact a_rgb_true_to_cieluv
  case lab => exact a_rgb_true_to_lab
  case lchAb => exact a_rgb_true_to_lch_ab
  case lchUv => exact a_rgb_true_to_lch_uv

theorem alpha_from_rgb_deep (t : ColorType) (ht : t ≠ .undefined) (hst : .rgbDeep ≠ t) : AlphaMap .rgbDeep NotBlack (Val.conv .rgbDeep t) (quant .rgbDeep t) := by
  cases t
  case undefined => exact absurd rfl ht
  case rgbDeep => exact absurd rfl hst
  case rgbTrue => exact a_rgb_deep_to_rgb_true
  case greyTrue => exact a_rgb_deep_to_grey_true
  case greyDeep => exact a_rgb_deep_to_grey_deep
  case cmyk => exact a_rgb_deep_to_cmyk
  case hsi => exact a_rgb_deep_to_hsi
  case hsv => exact a_rgb_deep_to_hsv
  case hsl => exact a_rgb_deep_to_hsl
  case hcy => exact a_rgb_deep_to_hcy
  case xyz => exact a_rgb_deep_to_xyz
  case xyy => exact a_rgb_deep_to_xyy
  case cieluv => exact a_rgb_deep_to_cieluv
  case lab => exact a_rgb_deep_to_lab
  case lchAb => exact a_rgb_deep_to_lch_ab
  case lchUv => exact a_rgb_deep_to_lch_uv

theorem alpha_from_grey_true (t : ColorType) (ht : t ≠ .undefined) (hst : .greyTrue ≠ t) : AlphaMap .greyTrue NotBlack (Val.conv .greyTrue t) (quant .greyTrue t) := by
  cases t
  case undefined => exact absurd rfl ht
  case greyTrue => exact absurd rfl hst
  case rgbTrue => exact a_grey_true_to_rgb_true
  case rgbDeep => exact a_grey_true_to_rgb_deep
  case greyDeep => exact a_grey_true_to_grey_deep
  case cmyk => exact a_grey_true_to_cmyk
  case hsi => exact a_grey_true_to_hsi
  case hsv => exact a_grey_true_to_hsv
  case hsl => exact a_grey_true_to_hsl
  case hcy => exact a_grey_true_to_hcy
  case xyz => exact a_grey_true_to_xyz
  case xyy => exact a_grey_true_to_xyy
  case cieluv => exact a_grey_true_to_cieluv
  case lab => exact a_grey_true_to_lab
  case lchAb => exact a_grey_true_to_lch_ab
  case lchUv => exact a_grey_true_to_lch_uv

theorem alpha_from_grey_deep (t : ColorType) (ht : t ≠ .undefined) (hst : .greyDeep ≠ t) : AlphaMap .greyDeep NotBlack (Val.conv .greyDeep t) (quant .greyDeep t) := by
  cases t
  case undefined => exact absurd rfl ht
  case greyDeep => exact absurd rfl hst
  case rgbTrue => exact a_grey_deep_to_rgb_true
  case rgbDeep => exact a_grey_deep_to_rgb_deep
  case greyTrue => exact a_grey_deep_to_grey_true
  case cmyk => exact a_grey_deep_to_cmyk
  case hsi => exact a_grey_deep_to_hsi
  case hsv => exact a_grey_deep_to_hsv
  case hsl => exact a_grey_deep_to_hsl
  case hcy => exact a_grey_deep_to_hcy
  case xyz => exact a_grey_deep_to_xyz
  case xyy => exact a_grey_deep_to_xyy
  case cieluv => exact a_grey_deep_to_cieluv
  case lab => exact a_grey_deep_to_lab
  case lchAb => exact a_grey_deep_to_lch_ab
  case lchUv => exact a_grey_deep_to_lch_uv

theorem alpha_from_cmyk (t : ColorType) (ht : t ≠ .undefined) (hst : .cmyk ≠ t) : AlphaMap .cmyk NotBlack (Val.conv .cmyk t) (quant .cmyk t) := by
  cases t
  case undefined => exact absurd rfl ht
  case cmyk => exact absurd rfl hst
  case rgbTrue => exact a_cmyk_to_rgb_true
  case rgbDeep => exact a_cmyk_to_rgb_deep
  case greyTrue => exact a_cmyk_to_grey_true
  case greyDeep => exact a_cmyk_to_grey_deep
  case hsi => exact a_cmyk_to_hsi
  case hsv => exact a_cmyk_to_hsv
  case hsl => exact a_cmyk_to_hsl
  case hcy => exact a_cmyk_to_hcy
  case xyz => exact a_cmyk_to_xyz
  case xyy => exact a_cmyk_to_xyy
  case cieluv => exact a_cmyk_to_cieluv
  case lab => exact a_cmyk_to_lab
  case lchAb => exact a_cmyk_to_lch_ab
  case lchUv => exact a_cmyk_to_lch_uv

theorem alpha_from_hsi (t : ColorType) (ht : t ≠ .undefined) (hst : .hsi ≠ t) : AlphaMap .hsi NotBlack (Val.conv .hsi t) (quant .hsi t) := by
  cases t
  case undefined => exact absurd rfl ht
  case hsi => exact absurd rfl hst
  case rgbTrue => exact a_hsi_to_rgb_true
  case rgbDeep => exact a_hsi_to_rgb_deep
  case greyTrue => exact a_hsi_to_grey_true
  case greyDeep => exact a_hsi_to_grey_deep
  case cmyk => exact a_hsi_to_cmyk
  case hsv => exact a_hsi_to_hsv
  case hsl => exact a_hsi_to_hsl
  case hcy => exact a_hsi_to_hcy
  case xyz => exact a_hsi_to_xyz
  case xyy => exact a_hsi_to_xyy
  case cieluv => exact a_hsi_to_cieluv
  case lab => exact a_hsi_to_lab
  case lchAb => exact a_hsi_to_lch_ab
  case lchUv => exact a_hsi_to_lch_uv

theorem alpha_from_hsv (t : ColorType) (ht : t ≠ .undefined) (hst : .hsv ≠ t) : AlphaMap .hsv NotBlack (Val.conv .hsv t) (quant .hsv t) := by
  cases t
  case undefined => exact absurd rfl ht
  case hsv => exact absurd rfl hst
  case rgbTrue => exact a_hsv_to_rgb_true
  case rgbDeep => exact a_hsv_to_rgb_deep
  case greyTrue => exact a_hsv_to_grey_true
  case greyDeep => exact a_hsv_to_grey_deep
  case cmyk => exact a_hsv_to_cmyk
  case hsi => exact a_hsv_to_hsi
  case hsl => exact a_hsv_to_hsl
  case hcy => exact a_hsv_to_hcy
  case xyz => exact a_hsv_to_xyz
  case xyy => exact a_hsv_to_xyy
  case cieluv => exact a_hsv_to_cieluv
  case lab => exact a_hsv_to_lab
  case lchAb => exact a_hsv_to_lch_ab
  case lchUv => exact a_hsv_to_lch_uv

theorem alpha_from_hsl (t : ColorType) (ht : t ≠ .undefined) (hst : .hsl ≠ t) : AlphaMap .hsl NotBlack (Val.conv .hsl t) (quant .hsl t) := by
  cases t
  case undefined => exact absurd rfl ht
  case hsl => exact absurd rfl hst
  case rgbTrue => exact a_hsl_to_rgb_true
  case rgbDeep => exact a_hsl_to_rgb_deep
  case greyTrue => exact a_hsl_to_grey_true
  case greyDeep => exact a_hsl_to_grey_deep
  case cmyk => exact a_hsl_to_cmyk
  case hsi => exact a_hsl_to_hsi
  case hsv => exact a_hsl_to_hsv
  case hcy => exact a_hsl_to_hcy
  case xyz => exact a_hsl_to_xyz
  case xyy => exact a_hsl_to_xyy
  case cieluv => exact a_hsl_to_cieluv
  case lab => exact a_hsl_to_lab
  case lchAb => exact a_hsl_to_lch_ab
  case lchUv => exact a_hsl_to_lch_uv

theorem alpha_from_hcy (t : ColorType) (ht : t ≠ .undefined) (hst : .hcy ≠ t) : AlphaMap .hcy NotBlack (Val.conv .hcy t) (quant .hcy t) := by
  cases t
  case undefined => exact absurd rfl ht
  case hcy => exact absurd rfl hst
  case rgbTrue => exact a_hcy_to_rgb_true
  case rgbDeep => exact a_hcy_to_rgb_deep
  case greyTrue => exact a_hcy_to_grey_true
  case greyDeep => exact a_hcy_to_grey_deep
  case cmyk => exact a_hcy_to_cmyk
  case hsi => exact a_hcy_to_hsi
  case hsv => exact a_hcy_to_hsv
  case hsl => exact a_hcy_to_hsl
  case xyz => exact a_hcy_to_xyz
  case xyy => exact a_hcy_to_xyy
  case cieluv => exact a_hcy_to_cieluv
  case lab => exact a_hcy_to_lab
  case lchAb => exact a_hcy_to_lch_ab
  case lchUv => exact a_hcy_to_lch_uv

theorem alpha_from_xyz (t : ColorType) (ht : t ≠ .undefined) (hst : .xyz ≠ t) : AlphaMap .xyz NotBlack (Val.conv .xyz t) (quant .xyz t) := by
  cases t
  case undefined => exact absurd rfl ht
  case xyz => exact absurd rfl hst
  case rgbTrue => exact a_xyz_to_rgb_true
  case rgbDeep => exact a_xyz_to_rgb_deep
  case greyTrue => exact a_xyz_to_grey_true
  case greyDeep => exact a_xyz_to_grey_deep
  case cmyk => exact a_xyz_to_cmyk
  case hsi => exact a_xyz_to_hsi
  case hsv => exact a_xyz_to_hsv
  case hsl => exact a_xyz_to_hsl
  case hcy => exact a_xyz_to_hcy
  case xyy => exact a_xyz_to_xyy
  case cieluv => exact a_xyz_to_cieluv
  case lab => exact a_xyz_to_lab
  case lchAb => exact a_xyz_to_lch_ab
  case lchUv => exact a_xyz_to_lch_uv

theorem alpha_from_xyy (t : ColorType) (ht : t ≠ .undefined) (hst : .xyy ≠ t) : AlphaMap .xyy NotBlack (Val.conv .xyy t) (quant .xyy t) := by
  cases t
  case undefined => exact absurd rfl ht
  case xyy => exact absurd rfl hst
  case rgbTrue => exact a_xyy_to_rgb_true
  case rgbDeep => exact a_xyy_to_rgb_deep
  case greyTrue => exact a_xyy_to_grey_true
  case greyDeep => exact a_xyy_to_grey_deep
  case cmyk => exact a_xyy_to_cmyk
  case hsi => exact a_xyy_to_hsi
  case hsv => exact a_xyy_to_hsv
  case hsl => exact a_xyy_to_hsl
  case hcy => exact a_xyy_to_hcy
  case xyz => exact a_xyy_to_xyz
  case cieluv => exact a_xyy_to_cieluv
  case lab => exact a_xyy_to_lab
  case lchAb => exact a_xyy_to_lch_ab
  case lchUv => exact a_xyy_to_lch_uv

theorem alpha_from_cieluv (t : ColorType) (ht : t ≠ .undefined) (hst : .cieluv ≠ t) : AlphaMap .cieluv NotBlack (Val.conv .cieluv t) (quant .cieluv t) := by
  cases t
  case undefined => exact absurd rfl ht
  case cieluv => exact absurd rfl hst
  case rgbTrue => exact a_cieluv_to_rgb_true
  case rgbDeep => exact a_cieluv_to_rgb_deep
  case greyTrue => exact a_cieluv_to_grey_true
  case greyDeep => exact a_cieluv_to_grey_deep
  case cmyk => exact a_cieluv_to_cmyk
  case hsi => exact a_cieluv_to_hsi
  case hsv => exact a_cieluv_to_hsv
  case hsl => exact a_cieluv_to_hsl
  case hcy => exact a_cieluv_to_hcy
  case xyz => exact a_cieluv_to_xyz
  case xyy => exact a_cieluv_to_xyy
  case lab => exact a_cieluv_to_lab
  case lchAb => exact a_cieluv_to_lch_ab
  case lchUv => exact a_cieluv_to_lch_uv

theorem alpha_from_lab (t : ColorType) (ht : t ≠ .undefined) (hst : .lab ≠ t) : AlphaMap .lab NotBlack (Val.conv .lab t) (quant .lab t) := by
  cases t
  case undefined => exact absurd rfl ht
  case lab => exact absurd rfl hst
  case rgbTrue => exact a_lab_to_rgb_true
  case rgbDeep => exact a_lab_to_rgb_deep
  case greyTrue => exact a_lab_to_grey_true
  case greyDeep => exact a_lab_to_grey_deep
  case cmyk => exact a_lab_to_cmyk
  case hsi => exact a_lab_to_hsi
  case hsv => exact a_lab_to_hsv
  case hsl => exact a_lab_to_hsl
  case hcy => exact a_lab_to_hcy
  case xyz => exact a_lab_to_xyz
  case xyy => exact a_lab_to_xyy
  case cieluv => exact a_lab_to_cieluv
  case lchAb => exact a_lab_to_lch_ab
  case lchUv => exact a_lab_to_lch_uv

theorem alpha_from_lch_ab (t : ColorType) (ht : t ≠ .undefined) (hst : .lchAb ≠ t) : AlphaMap .lchAb NotBlack (Val.conv .lchAb t) (quant .lchAb t) := by
  cases t
  case undefined => exact absurd rfl ht
  case lchAb => exact absurd rfl hst
  case rgbTrue => exact a_lch_ab_to_rgb_true
  case rgbDeep => exact a_lch_ab_to_rgb_deep
  case greyTrue => exact a_lch_ab_to_grey_true
  case greyDeep => exact a_lch_ab_to_grey_deep
  case cmyk => exact a_lch_ab_to_cmyk
  case hsi => exact a_lch_ab_to_hsi
  case hsv => exact a_lch_ab_to_hsv
  case hsl => exact a_lch_ab_to_hsl
  case hcy => exact a_lch_ab_to_hcy
  case xyz => exact a_lch_ab_to_xyz
  case xyy => exact a_lch_ab_to_xyy
  case cieluv => exact a_lch_ab_to_cieluv
  case lab => exact a_lch_ab_to_lab
  case lchUv => exact a_lch_ab_to_lch_uv

theorem alpha_from_lch_uv (t : ColorType) (ht : t ≠ .undefined) (hst : .lchUv ≠ t) : AlphaMap .lchUv NotBlack (Val.conv .lchUv t) (quant .lchUv t) := by
  cases t
  case undefined => exact absurd rfl ht
  case lchUv => exact absurd rfl hst
  case rgbTrue => exact a_lch_uv_to_rgb_true
  case rgbDeep => exact a_lch_uv_to_rgb_deep
  case greyTrue => exact a_lch_uv_to_grey_true
  case greyDeep => exact a_lch_uv_to_grey_deep
  case cmyk => exact a_lch_uv_to_cmyk
  case hsi => exact a_lch_uv_to_hsi
  case hsv => exact a_lch_uv_to_hsv
  case hsl => exact a_lch_uv_to_hsl
  case hcy => exact a_lch_uv_to_hcy
  case xyz => exact a_lch_uv_to_xyz
  case xyy => exact a_lch_uv_to_xyy
  case cieluv => exact a_lch_uv_to_cieluv
  case lab => exact a_lch_uv_to_lab
  case lchAb => exact a_lch_uv_to_lch_ab

theorem alpha_direct (s t : ColorType) (hs : s ≠ .undefined) (ht : t ≠ .undefined) (hst : s ≠ t) :
    AlphaMap s NotBlack (Val.conv s t) (quant s t) := by
  cases s
  case undefined => exact absurd rfl hs
  case rgbTrue => exact alpha_from_rgb_true t ht hst
  case rgbDeep => exact alpha_from_rgb_deep t ht hst
  case greyTrue => exact alpha_from_grey_true t ht hst
  case greyDeep => exact alpha_from_grey_deep t ht hst
  case cmyk => exact alpha_from_cmyk t ht hst
  case hsi => exact alpha_from_hsi t ht hst
  case hsv => exact alpha_from_hsv t ht hst
  case hsl => exact alpha_from_hsl t ht hst
  case hcy => exact alpha_from_hcy t ht hst
  case xyz => exact alpha_from_xyz t ht hst
  case xyy => exact alpha_from_xyy t ht hst
  case cieluv => exact alpha_from_cieluv t ht hst
  case lab => exact alpha_from_lab t ht hst
  case lchAb => exact alpha_from_lch_ab t ht hst
  case lchUv => exact alpha_from_lch_uv t ht hst

theorem alpha_black (t : ColorType) (ht : t ≠ .undefined) (hst : .hsl ≠ t) (hv : t ≠ .hsv) : AlphaMap .hsl Black (Val.conv .hsl t) (fun _ => 0) := by
  cases t
  case undefined => exact absurd rfl ht
  case hsl => exact absurd rfl hst
  case hsv => exact absurd rfl hv
  case rgbTrue => exact b_hsl_to_rgb_true
  case rgbDeep => exact b_hsl_to_rgb_deep
  case greyTrue => exact b_hsl_to_grey_true
  case greyDeep => exact b_hsl_to_grey_deep
  case cmyk => exact b_hsl_to_cmyk
  case hsi => exact b_hsl_to_hsi
  case hcy => exact b_hsl_to_hcy
  case xyz => exact b_hsl_to_xyz
  case xyy => exact b_hsl_to_xyy
  case cieluv => exact b_hsl_to_cieluv
  case lab => exact b_hsl_to_lab
  case lchAb => exact b_hsl_to_lch_ab
  case lchUv => exact b_hsl_to_lch_uv

end Conv
