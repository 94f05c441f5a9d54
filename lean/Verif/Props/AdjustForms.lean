import Verif.Props.HueGeometry
import Verif.Props.Published

/-!
# Properties C156 and C157: what the adjustments do to RGB colours, and doing two of them in a row

C156 gives the HSL adjustments of an RGB colour in closed form, C157 the laws of repeated adjustments.  Both in exact arithmetic.
-/

open Outcome Fl Prog ObjectSpec ConvSpec BlendSpec CombineSpec AdjustSpec Formula Hue
open FormulaSpec hiding luma

namespace AdjustSpec

/-- The largest chroma a colour of lightness `l` can have. -/
noncomputable def room (l : ℝ) : ℝ := 1 - |2 * l - 1|

/-- The channels `r`, `g`, `b` with their distances from `l` multiplied by `k`, around the new centre `m`. -/
noncomputable def spread (r g b l m k : ℝ) : List Fl := [fin (m + k * (r - l)), fin (m + k * (g - l)), fin (m + k * (b - l))]

theorem unit_range (x : ℝ) : 0 ≤ unit x ∧ unit x ≤ 1 := ⟨le_max_right _ _, max_le (min_le_right _ _) zero_le_one⟩

theorem room_nonneg {l : ℝ} (h0 : 0 ≤ l) (h1 : l ≤ 1) : 0 ≤ room l := by
  unfold room
  rcases abs_cases (2 * l - 1) with ⟨h, -⟩ | ⟨h, -⟩ <;> rw [h] <;> linarith

end AdjustSpec

section
variable [FloatModel] [ExactModel]

/-! ## C156 -/

omit [ExactModel] in
theorem converts_det {w : World} {c d e : Color} {s t : ColorType} (hs : s ≠ .undefined) (ht : t ≠ .undefined) (hc : IsColor s c) (h1 : Converts w c t d) (h2 : Converts w c t e) : d = e := by
  have e1 := (converts_iff hs ht hc).mp h1
  rw [(converts_iff hs ht hc).mp h2, ok_inj] at e1
  exact e1.symm

/-- HSL of an RGB colour together with the facts about the saturation that are needed below. -/
theorem hsl_of_rgb (w : World) (c : Color) (r g b H : ℝ) (h : IsRgb c r g b) (hH : HueOf r g b H) : ∃ d S, Converts w c .hsl d ∧ d = obj .hsl (min H 359) S (lightness r g b) c.malpha c.space ∧
    S * room (lightness r g b) = top r g b - bot r g b ∧ 0 ≤ S ∧ S ≤ 1 ∧ (top r g b = bot r g b → S = 0) := by
  obtain ⟨K, hK, d, hd, hi, ha, hsp⟩ := C105_to_hsl w c r g b h
  obtain rfl := hueOf_unique hK hH
  have b0 : 0 ≤ bot r g b := le_min (le_min h.r0 h.g0) h.b0
  have t1 : top r g b ≤ 1 := max_le (max_le h.r1 h.g1) h.b1
  have bt : bot r g b ≤ top r g b := (min_le_right _ _).trans (le_max_right _ _)
  have hl : lightness r g b = (top r g b + bot r g b) / 2 := rfl
  have habs : top r g b - bot r g b ≤ 1 - |2 * lightness r g b - 1| := by
    rw [hl]; rcases abs_cases (2 * ((top r g b + bot r g b) / 2) - 1) with ⟨h, -⟩ | ⟨h, -⟩ <;> rw [h] <;> linarith
  have hal : c.alpha = c.malpha := by rw [Color.alpha, h.col.cls]; rfl
  have hda : d.malpha = c.malpha := by
    have : d.alpha = d.malpha := by rw [Color.alpha, hi.col.cls]; rfl
    rw [← this, ha, hal]
  refine ⟨d, if top r g b = bot r g b then 0 else (top r g b - bot r g b) / (1 - |2 * lightness r g b - 1|), hd, ?_, ?_, ?_, ?_, ?_⟩
  · have := is_eq hi
    rwa [hda, hsp] at this
  · unfold room
    split_ifs with e
    · rw [e]; ring
    · have : top r g b - bot r g b ≠ 0 := sub_ne_zero.mpr e
      have : 0 < top r g b - bot r g b := lt_of_le_of_ne (by linarith) this.symm
      rw [div_mul_cancel₀ _ (by linarith)]
  · split_ifs
    · exact le_rfl
    · exact div_nonneg (by linarith) (by linarith)
  · split_ifs with e
    · exact zero_le_one
    · exact div_le_one_of_le₀ habs (by linarith)
  · intro e; rw [if_pos e]

/-- RGB of an HSL colour whose hue is the hue of `r`, `g`, `b`. -/
theorem rgb_of_hsl {w : World} {c : Color} {r g b H S m k : ℝ} (h : IsRgb c r g b) (hH : HueOf r g b H) (hg : H ≤ 359) (s0 : 0 ≤ S) (s1 : S ≤ 1) (m0 : 0 < m) (m1 : m ≤ 1)
    (hk : S * room m = k * (top r g b - bot r g b)) :
    Converts w (obj .hsl (min H 359) S m c.malpha c.space) .rgbDeep { c with comps := spread r g b (lightness r g b) m k } := by
  have hI : Is .hsl (obj .hsl (min H 359) S m c.malpha c.space) [min H 359, S, m] := ⟨⟨rfl, rfl, rfl, rfl, rfl⟩, rfl⟩
  obtain ⟨e, he1, he2, he3, he4⟩ := C105_from_hsl w _ _ _ _ hI (le_min hH.lo (by norm_num)) ((min_le_right _ _).trans (by norm_num)) s0 s1 m0 m1
  have ea : e.malpha = c.malpha := by
    have : e.alpha = e.malpha := by rw [Color.alpha, he2.col.cls]; rfl
    rw [← this, he3]; rfl
  have es : e.space = c.space := he4
  have hl : lightness r g b = (top r g b + bot r g b) / 2 := rfl
  have key : ∀ v x, v = bot r g b + (top r g b - bot r g b) * x → m + S * (1 - |2 * m - 1|) * (x - 1 / 2) = m + k * (v - lightness r g b) := fun v x hv => by
    have hk : S * (1 - |2 * m - 1|) = k * (top r g b - bot r g b) := hk
    rw [hk, hv, hl]; ring
  rw [min_eq_left hg, key r _ hH.red, key g _ hH.green, key b _ hH.blue] at he2
  have := is_eq he2
  rw [ea, es, obj_rgb h] at this
  rw [this] at he1
  exact he1

/-- An RGB colour that is not black has a positive lightness. -/
theorem lightness_pos {c : Color} {r g b : ℝ} (h : IsRgb c r g b) (hb : ¬ (r = 0 ∧ g = 0 ∧ b = 0)) : 0 < lightness r g b ∧ lightness r g b ≤ 1 := by
  have b0 : 0 ≤ bot r g b := le_min (le_min h.r0 h.g0) h.b0
  have t1 : top r g b ≤ 1 := max_le (max_le h.r1 h.g1) h.b1
  have bt : bot r g b ≤ top r g b := (min_le_right _ _).trans (le_max_right _ _)
  have hl : lightness r g b = (top r g b + bot r g b) / 2 := rfl
  refine ⟨?_, by rw [hl]; linarith⟩
  rcases (b0.trans bt).eq_or_lt with e | e
  · exfalso
    have h1 : r ≤ top r g b := (le_max_left _ _).trans (le_max_left _ _)
    have h2 : g ≤ top r g b := (le_max_right _ _).trans (le_max_left _ _)
    have h3 : b ≤ top r g b := le_max_right _ _
    exact hb ⟨by linarith [h.r0], by linarith [h.g0], by linarith [h.b0]⟩
  · rw [hl]; linarith

/-- **C156 (partial)** Saturating an RGB colour in HSL: every channel moves away from the lightness by the factor `1 + p`, at most until the largest channel is 1 or the smallest 0, at least onto the
lightness.  Missing: black, which becomes transparent, hues in the last degree before 360, which become 359, and `p = 0`, where the same object is returned. -/
theorem C156_saturate_partial (w : World) (c : Color) (r g b H p : ℝ) (h : IsRgb c r g b) (hH : HueOf r g b H) (hg : H ≤ 359) (hb : ¬ (r = 0 ∧ g = 0 ∧ b = 0)) (hp : p ≠ 0) :
    Makes (fun q => Adjust.saturate_in_hsl_space q (fin p)) w c
      { c with comps := spread r g b (lightness r g b) (lightness r g b) (max (min (1 + p) (room (lightness r g b) / (top r g b - bot r g b))) 0) } := by
  have hbase : Base w .rgbDeep c := ⟨by simp, by simp, h.col, by simp [Cie]⟩
  obtain ⟨d, S, hd, rfl, hS, s0, s1, sg⟩ := hsl_of_rgb w c r g b H h hH
  obtain ⟨l0, l1⟩ := lightness_pos h hb
  obtain ⟨⟨e, he, hc⟩, -⟩ := C124_converted w .rgbDeep c _ hbase (by simp) (min H 359) S (lightness r g b) p hp hd rfl
  have h2 := rgb_of_hsl (w := w) (S := unit (S * (1 + p))) (k := max (min (1 + p) (room (lightness r g b) / (top r g b - bot r g b))) 0) h hH hg (unit_range _).1 (unit_range _).2 l0 l1 (by
    by_cases ht : top r g b = bot r g b
    · rw [sg ht, ht]; simp [unit]
    · have bt : bot r g b ≤ top r g b := (min_le_right _ _).trans (le_max_right _ _)
      have hpos : 0 < top r g b - bot r g b := lt_of_le_of_ne (by linarith) (sub_ne_zero.mpr ht).symm
      have hR := room_nonneg l0.le l1
      unfold unit
      rw [max_mul_of_nonneg _ _ hR, min_mul_of_nonneg _ _ hR, max_mul_of_nonneg _ _ hpos.le, min_mul_of_nonneg _ _ hpos.le, div_mul_cancel₀ _ hpos.ne', zero_mul, zero_mul, one_mul]
      congr 2
      linear_combination (1 + p) * hS)
  rwa [converts_det (s := .hsl) (by simp) (by simp) ⟨rfl, rfl, rfl, rfl, rfl⟩ hc h2] at he

/-- **C156 (partial)** Luminating an RGB colour in HSL: the lightness is multiplied by `1 + p`, at most up to 1, and the distances of the channels from it change like the room for chroma.  Missing as above;
`p ≤ -1` gives transparent black (`C156_black_violated`). -/
theorem C156_luminate_partial (w : World) (c : Color) (r g b H p : ℝ) (h : IsRgb c r g b) (hH : HueOf r g b H) (hg : H ≤ 359) (hb : ¬ (r = 0 ∧ g = 0 ∧ b = 0)) (hp : p ≠ 0) (hp1 : -1 < p) :
    Makes (fun q => Adjust.luminate_in_hsl_space q (fin p)) w c
      { c with comps := spread r g b (lightness r g b) (min ((1 + p) * lightness r g b) 1) (room (min ((1 + p) * lightness r g b) 1) / room (lightness r g b)) } := by
  have hbase : Base w .rgbDeep c := ⟨by simp, by simp, h.col, by simp [Cie]⟩
  obtain ⟨d, S, hd, rfl, hS, s0, s1, sg⟩ := hsl_of_rgb w c r g b H h hH
  obtain ⟨l0, l1⟩ := lightness_pos h hb
  obtain ⟨-, e, he, hc⟩ := C124_converted w .rgbDeep c _ hbase (by simp) (min H 359) S (lightness r g b) p hp hd rfl
  have hm : unit (lightness r g b * (1 + p)) = min ((1 + p) * lightness r g b) 1 := by
    rw [unit, max_eq_left, mul_comm]
    exact le_min (mul_nonneg l0.le (by linarith)) zero_le_one
  have m0 : 0 < min ((1 + p) * lightness r g b) 1 := lt_min (mul_pos (by linarith) l0) one_pos
  rw [hm] at hc
  have h2 := rgb_of_hsl (w := w) (S := S) (k := room (min ((1 + p) * lightness r g b) 1) / room (lightness r g b)) h hH hg s0 s1 m0 (min_le_right _ _) (by
    rw [← hS]
    by_cases hz : room (lightness r g b) = 0
    · have : top r g b = bot r g b := by
        rw [hz, mul_zero] at hS
        linarith
      rw [sg this]; ring
    · field_simp)
  rwa [converts_det (s := .hsl) (by simp) (by simp) ⟨rfl, rfl, rfl, rfl, rfl⟩ hc h2] at he

/-- **C156** As long as the lightness stays below one half, luminating in HSL and luminating in RGB are the same: all channels are multiplied by `1 + p`. -/
theorem C156_dark_partial (w : World) (c : Color) (r g b H p : ℝ) (h : IsRgb c r g b) (hH : HueOf r g b H) (hg : H ≤ 359) (hb : ¬ (r = 0 ∧ g = 0 ∧ b = 0)) (hp : p ≠ 0) (hp1 : -1 < p)
    (hl : lightness r g b ≤ 1 / 2) (hl' : (1 + p) * lightness r g b ≤ 1 / 2) :
    Makes (fun q => Adjust.luminate_in_hsl_space q (fin p)) w c { c with comps := [fin ((1 + p) * r), fin ((1 + p) * g), fin ((1 + p) * b)] } ∧
    Makes (fun q => Adjust.luminate_in_rgb_space q (fin p)) w c { c with comps := [fin ((1 + p) * r), fin ((1 + p) * g), fin ((1 + p) * b)] } := by
  obtain ⟨l0, l1⟩ := lightness_pos h hb
  have b0 : 0 ≤ bot r g b := le_min (le_min h.r0 h.g0) h.b0
  have ht : top r g b ≤ 2 * lightness r g b := by rw [lightness]; linarith
  constructor
  · have := C156_luminate_partial w c r g b H p h hH hg hb hp hp1
    have hm : min ((1 + p) * lightness r g b) 1 = (1 + p) * lightness r g b := min_eq_left (by linarith)
    have r1 : room (lightness r g b) = 2 * lightness r g b := by rw [room, abs_of_nonpos (by linarith)]; ring
    have r2 : room ((1 + p) * lightness r g b) = 2 * ((1 + p) * lightness r g b) := by rw [room, abs_of_nonpos (by linarith)]; ring
    have hk : 2 * ((1 + p) * lightness r g b) / (2 * lightness r g b) = 1 + p := by field_simp
    rw [hm, r1, r2, hk] at this
    have hv : ∀ v, (1 + p) * lightness r g b + (1 + p) * (v - lightness r g b) = (1 + p) * v := fun v => by ring
    simpa only [spread, hv] using this
  · have := (C95_formulas w c r g b p h).2
    have hu : ∀ v, 0 ≤ v → v ≤ top r g b → unit ((1 + p) * v) = (1 + p) * v := fun v v0 v1 =>
      unit_id (mul_nonneg (by linarith) v0) (by nlinarith)
    rwa [hu r h.r0 ((le_max_left _ _).trans (le_max_left _ _)), hu g h.g0 ((le_max_right _ _).trans (le_max_left _ _)), hu b h.b0 (le_max_right _ _)] at this

/-- **C156 fails** for `p ≤ -1`: the black that luminating in HSL gives has lost its opacity, the one luminating in RGB gives has not. -/
theorem C156_black_violated (w : World) (c : Color) (r g b p : ℝ) (h : IsRgb c r g b) (hp : p ≤ -1) :
    Makes (fun q => Adjust.luminate_in_hsl_space q (fin p)) w c { c with comps := [fin 0, fin 0, fin 0], malpha := 0 } ∧
    Makes (fun q => Adjust.luminate_in_rgb_space q (fin p)) w c { c with comps := [fin 0, fin 0, fin 0] } := by
  have hbase : Base w .rgbDeep c := ⟨by simp, by simp, h.col, by simp [Cie]⟩
  constructor
  · obtain ⟨H, hH, -⟩ := C105_to_hsl w c r g b h
    obtain ⟨d, S, hd, rfl, hS, s0, s1, sg⟩ := hsl_of_rgb w c r g b H h hH
    have b0 : 0 ≤ bot r g b := le_min (le_min h.r0 h.g0) h.b0
    have bt : bot r g b ≤ top r g b := (min_le_right _ _).trans (le_max_right _ _)
    have l0 : 0 ≤ lightness r g b := by rw [lightness]; linarith
    obtain ⟨-, e, he, hc⟩ := C124_converted w .rgbDeep c _ hbase (by simp) (min H 359) S (lightness r g b) p (by linarith) hd rfl
    have hm : unit (lightness r g b * (1 + p)) = 0 := by
      rw [unit, max_eq_right]
      exact (min_le_left _ _).trans (mul_nonpos_of_nonneg_of_nonpos l0 (by linarith))
    rw [hm] at hc
    have h2 : Val.to .hsl .rgbDeep w (obj .hsl (min H 359) S 0 c.malpha c.space) = ok { c with comps := [fin 0, fin 0, fin 0], malpha := 0 } := by
      rw [Val.to, if_neg (by simp)]
      show Leaf.hsl_to_rgb_deep _ = _
      simp only [Leaf.hsl_to_rgb_deep, obj_0, obj_1, obj_2, obj_space, ok_bind]
      rw [if_pos (by simp)]
      have := obj_rgb h 0 0 0
      obtain ⟨⟨h1, h2, -, h3, h4⟩, -⟩ := h
      simp only [Color.constructGrey]
      cases c
      simp only at h1 h2 h3 h4
      subst h1 h2 h3 h4
      have z : Color.clamp (fin 0) (fin 1) (fin 0) = fin 0 := by rw [Color.clamp_fin]; simp
      simp [Color.mkRgbDeep, Color.construct_rgbDeep, z, Color.maxOf, Color.minOf]
    have h2 := (converts_iff (s := .hsl) (t := .rgbDeep) (by simp) (by simp) ⟨rfl, rfl, rfl, rfl, rfl⟩).mpr h2
    rwa [converts_det (s := .hsl) (by simp) (by simp) ⟨rfl, rfl, rfl, rfl, rfl⟩ hc h2] at he
  · have := (C95_formulas w c r g b p h).2
    have hu : ∀ v, 0 ≤ v → unit ((1 + p) * v) = 0 := fun v v0 => by
      rw [unit, max_eq_right]
      exact (min_le_left _ _).trans (mul_nonpos_of_nonpos_of_nonneg (by linarith) v0)
    rwa [hu r h.r0, hu g h.g0, hu b h.b0] at this

/-! ## C157 -/

omit [FloatModel] [ExactModel] in
theorem AdjustSpec.unit_twice {v p q : ℝ} (v0 : 0 ≤ v) (hq : -1 ≤ q) (hc : 0 ≤ q ∨ (1 + p) * v ≤ 1) : unit ((1 + q) * unit ((1 + p) * v)) = unit ((1 + p) * (1 + q) * v) := by
  have hq : 0 ≤ 1 + q := by linarith
  rcases le_total ((1 + p) * v) 0 with h | h
  · have h1 : unit ((1 + p) * v) = 0 := by rw [unit, max_eq_right]; exact (min_le_left _ _).trans h
    rw [h1, mul_zero, unit, unit, max_eq_right (min_le_left _ _), max_eq_right]
    exact (min_le_left _ _).trans (by nlinarith)
  · rcases le_total ((1 + p) * v) 1 with h' | h'
    · rw [unit_id h h']; congr 1; ring
    · have h1 : unit ((1 + p) * v) = 1 := by rw [unit, min_eq_right h', max_eq_left zero_le_one]
      rcases hc with hc | hc
      · have a : 1 ≤ (1 + p) * (1 + q) * v := by nlinarith
        rw [h1, mul_one, unit, unit, min_eq_right (by linarith), min_eq_right a]
      · rw [h1, mul_one]
        congr 1
        have : (1 + p) * v = 1 := le_antisymm hc h'
        linear_combination -(1 + q) * this

theorem isRgb_with {c : Color} {r g b x y z : ℝ} (h : IsRgb c r g b) (hx : 0 ≤ x ∧ x ≤ 1) (hy : 0 ≤ y ∧ y ≤ 1) (hz : 0 ≤ z ∧ z ≤ 1) : IsRgb { c with comps := [fin x, fin y, fin z] } x y z :=
  ⟨⟨h.col.cls, h.col.ctype, rfl, h.col.maxv, h.col.minv⟩, rfl, hx.1, hx.2, hy.1, hy.2, hz.1, hz.2⟩

/-- **C157** Luminating an RGB colour by `p` and then by `q` is luminating it by `(1 + p)(1 + q) - 1` at once, if the second step brightens or the first one cuts nothing off. -/
theorem C157_luminate_rgb (w : World) (c : Color) (r g b p q : ℝ) (h : IsRgb c r g b) (hq : -1 ≤ q) (hc : 0 ≤ q ∨ (1 + p) * top r g b ≤ 1) :
    ∃ d e, Makes (fun k => Adjust.luminate_in_rgb_space k (fin p)) w c d ∧ Makes (fun k => Adjust.luminate_in_rgb_space k (fin q)) w d e ∧
      Makes (fun k => Adjust.luminate_in_rgb_space k (fin ((1 + p) * (1 + q) - 1))) w c e := by
  have a := (C95_formulas w c r g b p h).2
  have hd := isRgb_with h (unit_range ((1 + p) * r)) (unit_range ((1 + p) * g)) (unit_range ((1 + p) * b))
  have a2 := (C95_formulas w _ _ _ _ q hd).2
  refine ⟨_, _, a, a2, ?_⟩
  have a3 := (C95_formulas w c r g b ((1 + p) * (1 + q) - 1) h).2
  have hv : ∀ v, 0 ≤ v → v ≤ top r g b → unit ((1 + q) * unit ((1 + p) * v)) = unit ((1 + ((1 + p) * (1 + q) - 1)) * v) := fun v v0 v1 => by
    rw [unit_twice v0 hq]
    · congr 1; ring
    · refine hc.imp_right fun hc => ?_
      by_cases hp : 0 ≤ 1 + p
      · exact (mul_le_mul_of_nonneg_left v1 hp).trans hc
      · exact (mul_nonpos_of_nonpos_of_nonneg (by linarith) v0).trans zero_le_one
  rw [← hv r h.r0 ((le_max_left _ _).trans (le_max_left _ _)), ← hv g h.g0 ((le_max_right _ _).trans (le_max_left _ _)), ← hv b h.b0 (le_max_right _ _)] at a3
  exact a3

/-- **C157** Saturating an RGB colour by `p` and then by `q` is saturating it by `(1 + p)(1 + q) - 1` at once, if the first step cuts nothing off. -/
theorem C157_saturate_rgb (w : World) (c : Color) (r g b p q : ℝ) (h : IsRgb c r g b)
    (hr : ∀ v ∈ [r, g, b], 0 ≤ luma r g b + (1 + p) * (v - luma r g b) ∧ luma r g b + (1 + p) * (v - luma r g b) ≤ 1) :
    ∃ d e, Makes (fun k => Adjust.saturate_in_rgb_space k (fin p)) w c d ∧ Makes (fun k => Adjust.saturate_in_rgb_space k (fin q)) w d e ∧
      Makes (fun k => Adjust.saturate_in_rgb_space k (fin ((1 + p) * (1 + q) - 1))) w c e := by
  have h1 := hr r (by simp)
  have h2 := hr g (by simp)
  have h3 := hr b (by simp)
  have a := (C95_formulas w c r g b p h).1
  rw [unit_id h1.1 h1.2, unit_id h2.1 h2.2, unit_id h3.1 h3.2] at a
  have hd := isRgb_with h h1 h2 h3
  have a2 := (C95_formulas w _ _ _ _ q hd).1
  have hl : luma (luma r g b + (1 + p) * (r - luma r g b)) (luma r g b + (1 + p) * (g - luma r g b)) (luma r g b + (1 + p) * (b - luma r g b)) = luma r g b := by unfold luma; ring
  rw [hl] at a2
  refine ⟨_, _, a, a2, ?_⟩
  have a3 := (C95_formulas w c r g b ((1 + p) * (1 + q) - 1) h).1
  have hv : ∀ v, luma r g b + (1 + q) * (luma r g b + (1 + p) * (v - luma r g b) - luma r g b) = luma r g b + (1 + ((1 + p) * (1 + q) - 1)) * (v - luma r g b) := fun v => by ring
  simp only [hv]
  exact a3

/-- **C157** Adjusting an HSL colour twice in HSL is adjusting it by `(1 + p)(1 + q) - 1` at once, if the second step is not negative or the first one cuts nothing off. -/
theorem C157_hsl (w : World) (c : Color) (x y z p q : ℝ) (h : IsHsl c x y z) (hq : -1 ≤ q) :
    ((0 ≤ q ∨ (1 + p) * y ≤ 1) → ∃ d e, Replaces (fun k => Adjust.saturate_in_hsl_space k (fin p)) w c d ∧ Replaces (fun k => Adjust.saturate_in_hsl_space k (fin q)) w d e ∧
      Replaces (fun k => Adjust.saturate_in_hsl_space k (fin ((1 + p) * (1 + q) - 1))) w c e) ∧
    ((0 ≤ q ∨ (1 + p) * z ≤ 1) → ∃ d e, Replaces (fun k => Adjust.luminate_in_hsl_space k (fin p)) w c d ∧ Replaces (fun k => Adjust.luminate_in_hsl_space k (fin q)) w d e ∧
      Replaces (fun k => Adjust.luminate_in_hsl_space k (fin ((1 + p) * (1 + q) - 1))) w c e) := by
  have hv : ∀ v, 0 ≤ v → (0 ≤ q ∨ (1 + p) * v ≤ 1) → unit (unit (v * (1 + p)) * (1 + q)) = unit (v * (1 + ((1 + p) * (1 + q) - 1))) := fun v v0 hc => by
    rw [mul_comm, mul_comm v, unit_twice v0 hq hc]
    congr 1; ring
  have hw : ∀ Y Z : ℝ, 0 ≤ Y → Y ≤ 1 → 0 ≤ Z → Z ≤ 1 → IsHsl { c with comps := [fin x, fin Y, fin Z] } x Y Z := fun Y Z y0 y1 z0 z1 =>
    ⟨⟨h.col.cls, h.col.ctype, rfl, h.col.maxv, h.col.minv⟩, rfl, h.x0, h.x1, y0, y1, z0, z1⟩
  constructor <;> intro hc
  · refine ⟨_, _, (C124_hsl w c x y z p h).1, (C124_hsl w _ _ _ _ q (hw _ _ (unit_range _).1 (unit_range _).2 h.z0 h.z1)).1, ?_⟩
    have := (C124_hsl w c x y z ((1 + p) * (1 + q) - 1) h).1
    rwa [← hv y h.y0 hc] at this
  · refine ⟨_, _, (C124_hsl w c x y z p h).2, (C124_hsl w _ _ _ _ q (hw _ _ h.y0 h.y1 (unit_range _).1 (unit_range _).2)).2, ?_⟩
    have := (C124_hsl w c x y z ((1 + p) * (1 + q) - 1) h).2
    rwa [← hv z h.z0 hc] at this

/-- **C157** An adjustment of an RGB colour in RGB by `p > -1` that cuts nothing off is undone by the one by `-p / (1 + p)`. -/
theorem C157_undo_rgb (w : World) (c : Color) (r g b p : ℝ) (h : IsRgb c r g b) (hp : -1 < p) :
    ((1 + p) * top r g b ≤ 1 → ∃ d, Makes (fun k => Adjust.luminate_in_rgb_space k (fin p)) w c d ∧ Makes (fun k => Adjust.luminate_in_rgb_space k (fin (-p / (1 + p)))) w d c) ∧
    ((∀ v ∈ [r, g, b], 0 ≤ luma r g b + (1 + p) * (v - luma r g b) ∧ luma r g b + (1 + p) * (v - luma r g b) ≤ 1) →
      ∃ d, Makes (fun k => Adjust.saturate_in_rgb_space k (fin p)) w c d ∧ Makes (fun k => Adjust.saturate_in_rgb_space k (fin (-p / (1 + p)))) w d c) := by
  have hp' : 1 + p ≠ 0 := by linarith
  have e : (1 + p) * (1 + -p / (1 + p)) - 1 = 0 := by field_simp; ring
  have hq : -1 ≤ -p / (1 + p) := by rw [le_div_iff₀ (by linarith)]; linarith
  constructor <;> intro hc
  · obtain ⟨d, f, a1, a2, a3⟩ := C157_luminate_rgb w c r g b p (-p / (1 + p)) h hq (Or.inr hc)
    rw [e] at a3
    rw [a3.unique (C82_rgb_deep_partial _ (Or.inr rfl) w c r g b h)] at a2
    exact ⟨d, a1, a2⟩
  · obtain ⟨d, f, a1, a2, a3⟩ := C157_saturate_rgb w c r g b p (-p / (1 + p)) h hc
    rw [e] at a3
    rw [a3.unique (C82_rgb_deep_partial _ (Or.inl rfl) w c r g b h)] at a2
    exact ⟨d, a1, a2⟩

/-- **C157** The same for HSL colours. -/
theorem C157_undo_hsl (w : World) (c : Color) (x y z p : ℝ) (h : IsHsl c x y z) (hp : -1 < p) :
    ((1 + p) * y ≤ 1 → ∃ d, Replaces (fun k => Adjust.saturate_in_hsl_space k (fin p)) w c d ∧ Replaces (fun k => Adjust.saturate_in_hsl_space k (fin (-p / (1 + p)))) w d c) ∧
    ((1 + p) * z ≤ 1 → ∃ d, Replaces (fun k => Adjust.luminate_in_hsl_space k (fin p)) w c d ∧ Replaces (fun k => Adjust.luminate_in_hsl_space k (fin (-p / (1 + p)))) w d c) := by
  have hp' : 1 + p ≠ 0 := by linarith
  have e : ∀ v, unit (v * (1 + p) * (1 + -p / (1 + p))) = unit v := fun v => by congr 1; field_simp; ring
  have hw : ∀ Y Z : ℝ, 0 ≤ Y → Y ≤ 1 → 0 ≤ Z → Z ≤ 1 → IsHsl { c with comps := [fin x, fin Y, fin Z] } x Y Z := fun Y Z y0 y1 z0 z1 =>
    ⟨⟨h.col.cls, h.col.ctype, rfl, h.col.maxv, h.col.minv⟩, rfl, h.x0, h.x1, y0, y1, z0, z1⟩
  constructor <;> intro hc
  · have h0 : 0 ≤ y * (1 + p) := mul_nonneg h.y0 (by linarith)
    have h1 : y * (1 + p) ≤ 1 := by linarith
    have a := (C124_hsl w c x y z p h).1
    rw [unit_id h0 h1] at a
    have a2 := (C124_hsl w _ _ _ _ (-p / (1 + p)) (hw _ z h0 h1 h.z0 h.z1)).1
    rw [e, unit_id h.y0 h.y1] at a2
    refine ⟨_, a, ?_⟩
    have : { c with comps := [fin x, fin y, fin z] } = c := by rw [← h.comps]
    exact this ▸ a2
  · have h0 : 0 ≤ z * (1 + p) := mul_nonneg h.z0 (by linarith)
    have h1 : z * (1 + p) ≤ 1 := by linarith
    have a := (C124_hsl w c x y z p h).2
    rw [unit_id h0 h1] at a
    have a2 := (C124_hsl w _ _ _ _ (-p / (1 + p)) (hw y _ h.y0 h.y1 h0 h1)).2
    rw [e, unit_id h.z0 h.z1] at a2
    refine ⟨_, a, ?_⟩
    have : { c with comps := [fin x, fin y, fin z] } = c := by rw [← h.comps]
    exact this ▸ a2

omit [FloatModel] [ExactModel] in
/-- Spreading the channels around the lightness keeps the lightness and scales the chroma. -/
theorem spread_shape (r g b : ℝ) {k : ℝ} (hk : 0 ≤ k) :
    top (lightness r g b + k * (r - lightness r g b)) (lightness r g b + k * (g - lightness r g b)) (lightness r g b + k * (b - lightness r g b)) =
      lightness r g b + k * (top r g b - lightness r g b) ∧
    bot (lightness r g b + k * (r - lightness r g b)) (lightness r g b + k * (g - lightness r g b)) (lightness r g b + k * (b - lightness r g b)) =
      lightness r g b + k * (bot r g b - lightness r g b) := by
  have e : ∀ v, lightness r g b + k * (v - lightness r g b) = k * v + (lightness r g b - k * lightness r g b) := fun v => by ring
  rw [e, e, e, e, e]
  exact ⟨top_affine hk _ _ _ _, bot_affine hk _ _ _ _⟩

/-- **C157 (partial)** Saturating an RGB colour twice in HSL is saturating it by `(1 + p)(1 + q) - 1` at once, if the second step is not negative or the first one cuts nothing off.  Missing: black, hues in
the last degree before 360, steps by 0 (which return the same object). -/
theorem C157_saturate_hsl_partial (w : World) (c : Color) (r g b H p q : ℝ) (h : IsRgb c r g b) (hH : HueOf r g b H) (hg : H ≤ 359) (hb : ¬ (r = 0 ∧ g = 0 ∧ b = 0)) (hp : -1 < p) (hq : -1 ≤ q)
    (hp0 : p ≠ 0) (hq0 : q ≠ 0) (hpq : (1 + p) * (1 + q) ≠ 1) (hc : 0 ≤ q ∨ (1 + p) * (top r g b - bot r g b) ≤ room (lightness r g b)) :
    ∃ d e, Makes (fun k => Adjust.saturate_in_hsl_space k (fin p)) w c d ∧ Makes (fun k => Adjust.saturate_in_hsl_space k (fin q)) w d e ∧
      Makes (fun k => Adjust.saturate_in_hsl_space k (fin ((1 + p) * (1 + q) - 1))) w c e := by
  obtain ⟨l0, l1⟩ := lightness_pos h hb
  have bt : bot r g b ≤ top r g b := (min_le_right _ _).trans (le_max_right _ _)
  have b0 : 0 ≤ bot r g b := le_min (le_min h.r0 h.g0) h.b0
  have t1 : top r g b ≤ 1 := max_le (max_le h.r1 h.g1) h.b1
  have hl : lightness r g b = (top r g b + bot r g b) / 2 := rfl
  have hR := room_nonneg l0.le l1
  have hR1 : room (lightness r g b) ≤ 2 * lightness r g b := by unfold room; linarith [neg_abs_le (2 * lightness r g b - 1)]
  have hR2 : room (lightness r g b) ≤ 2 * (1 - lightness r g b) := by unfold room; linarith [le_abs_self (2 * lightness r g b - 1)]
  have hRT : top r g b - bot r g b ≤ room (lightness r g b) := by
    unfold room
    rw [hl]; rcases abs_cases (2 * ((top r g b + bot r g b) / 2) - 1) with ⟨h, -⟩ | ⟨h, -⟩ <;> rw [h] <;> linarith
  have rr : bot r g b ≤ r ∧ r ≤ top r g b := ⟨(min_le_left _ _).trans (min_le_left _ _), (le_max_left _ _).trans (le_max_left _ _)⟩
  have gg : bot r g b ≤ g ∧ g ≤ top r g b := ⟨(min_le_left _ _).trans (min_le_right _ _), (le_max_right _ _).trans (le_max_left _ _)⟩
  have bb : bot r g b ≤ b ∧ b ≤ top r g b := ⟨min_le_right _ _, le_max_right _ _⟩
  have a := C156_saturate_partial w c r g b H p h hH hg hb hp0
  have a3 := C156_saturate_partial w c r g b H ((1 + p) * (1 + q) - 1) h hH hg hb (by intro e; apply hpq; linarith)
  set k := max (min (1 + p) (room (lightness r g b) / (top r g b - bot r g b))) 0 with hk
  have k0 : 0 ≤ k := le_max_right _ _
  have kT : k * (top r g b - bot r g b) ≤ room (lightness r g b) := by
    rcases bt.eq_or_lt with e | e
    · rw [e, sub_self, mul_zero]; exact hR
    · have hpos : 0 < top r g b - bot r g b := by linarith
      rw [hk, max_mul_of_nonneg _ _ hpos.le, min_mul_of_nonneg _ _ hpos.le, div_mul_cancel₀ _ hpos.ne', zero_mul]
      exact max_le (min_le_right _ _) hR
  have hin : ∀ v, bot r g b ≤ v ∧ v ≤ top r g b → 0 ≤ lightness r g b + k * (v - lightness r g b) ∧ lightness r g b + k * (v - lightness r g b) ≤ 1 := fun v hv => by
    have e1 : k * (v - lightness r g b) ≤ k * ((top r g b - bot r g b) / 2) := mul_le_mul_of_nonneg_left (by rw [hl]; linarith [hv.2]) k0
    have e2 : k * (-((top r g b - bot r g b) / 2)) ≤ k * (v - lightness r g b) := mul_le_mul_of_nonneg_left (by rw [hl]; linarith [hv.1]) k0
    constructor <;> nlinarith
  have hd := isRgb_with h (hin r rr) (hin g gg) (hin b bb)
  obtain ⟨st, sb⟩ := spread_shape r g b k0
  have sl : lightness (lightness r g b + k * (r - lightness r g b)) (lightness r g b + k * (g - lightness r g b)) (lightness r g b + k * (b - lightness r g b)) = lightness r g b := by
    rw [lightness, st, sb, hl]; ring
  have hbd : ¬ (lightness r g b + k * (r - lightness r g b) = 0 ∧ lightness r g b + k * (g - lightness r g b) = 0 ∧ lightness r g b + k * (b - lightness r g b) = 0) := by
    rintro ⟨e1, e2, e3⟩
    rw [e1, e2, e3] at sl
    simp [lightness, top, bot] at sl
    rw [lightness, top, bot] at l0
    linarith
  rcases bt.eq_or_lt with heq | hlt
  · have hv : ∀ v, bot r g b ≤ v ∧ v ≤ top r g b → v - lightness r g b = 0 := fun v hv => by rw [hl]; linarith [hv.1, hv.2]
    have hc' : ∀ k, { c with comps := spread r g b (lightness r g b) (lightness r g b) k } = c := fun k => by
      have e : ∀ v, bot r g b ≤ v ∧ v ≤ top r g b → lightness r g b + k * (v - lightness r g b) = v := fun v h => by rw [hv v h]; linarith [hv v h]
      rw [spread, e r rr, e g gg, e b bb, ← h.comps]
    have a2 := C156_saturate_partial w c r g b H q h hH hg hb hq0
    rw [hc'] at a a2 a3
    exact ⟨c, c, a, a2, a3⟩
  · have hpos : 0 < top r g b - bot r g b := by linarith
    have hR0 : 0 < room (lightness r g b) := by linarith
    have hk' : k = min (1 + p) (room (lightness r g b) / (top r g b - bot r g b)) := max_eq_left (le_min (by linarith) (by positivity))
    have k1 : 0 < k := by rw [hk']; exact lt_min (by linarith) (by positivity)
    have hHd : HueOf (lightness r g b + k * (r - lightness r g b)) (lightness r g b + k * (g - lightness r g b)) (lightness r g b + k * (b - lightness r g b)) H := by
      have := hueOf_affine k1 (lightness r g b - k * lightness r g b) hH
      have e : ∀ v, lightness r g b + k * (v - lightness r g b) = k * v + (lightness r g b - k * lightness r g b) := fun v => by ring
      rw [e, e, e]
      exact this
    have a2 := C156_saturate_partial w _ _ _ _ H q hd hHd hg hbd hq0
    refine ⟨_, _, a, a2, ?_⟩
    rw [sl, st, sb]
    have hkk : max (min (1 + q) (room (lightness r g b) / (lightness r g b + k * (top r g b - lightness r g b) - (lightness r g b + k * (bot r g b - lightness r g b))))) 0 * k =
        max (min (1 + ((1 + p) * (1 + q) - 1)) (room (lightness r g b) / (top r g b - bot r g b))) 0 := by
      have e1 : lightness r g b + k * (top r g b - lightness r g b) - (lightness r g b + k * (bot r g b - lightness r g b)) = k * (top r g b - bot r g b) := by ring
      have e2 : room (lightness r g b) / (k * (top r g b - bot r g b)) * k = room (lightness r g b) / (top r g b - bot r g b) := by field_simp
      have hq' : 0 ≤ 1 + q := by linarith
      rw [e1, max_mul_of_nonneg _ _ k0, min_mul_of_nonneg _ _ k0, e2, zero_mul]
      congr 1
      rw [show 1 + ((1 + p) * (1 + q) - 1) = (1 + q) * (1 + p) by ring]
      rcases hc with hc | hc
      · rw [hk', mul_min_of_nonneg _ _ hq', min_assoc]
        congr 1
        exact min_eq_right (le_mul_of_one_le_left (by positivity) (by linarith))
      · rw [hk', min_eq_left ((le_div_iff₀ hpos).mpr hc)]
    have hs : spread (lightness r g b + k * (r - lightness r g b)) (lightness r g b + k * (g - lightness r g b)) (lightness r g b + k * (b - lightness r g b)) (lightness r g b) (lightness r g b)
        (max (min (1 + q) (room (lightness r g b) / (lightness r g b + k * (top r g b - lightness r g b) - (lightness r g b + k * (bot r g b - lightness r g b))))) 0) =
        spread r g b (lightness r g b) (lightness r g b) (max (min (1 + ((1 + p) * (1 + q) - 1)) (room (lightness r g b) / (top r g b - bot r g b))) 0) := by
      rw [← hkk]
      unfold spread
      simp only [add_sub_cancel_left, mul_assoc]
    rw [hs]
    exact a3

/-! ## Examples -/

/-- The hue of (0.6, 0.4, 0.2) is 30 degrees. -/
theorem hue_example : HueOf 0.6 0.4 0.2 30 := by
  have ht : top 0.6 0.4 0.2 = 0.6 := by norm_num [top]
  have hb : bot 0.6 0.4 0.2 = 0.2 := by norm_num [bot]
  refine ⟨by norm_num, by norm_num, ?_, ?_, ?_, fun h => ?_⟩
  · rw [ht, hb]; norm_num [hexRed, clip]
  · rw [ht, hb]; norm_num [hexGreen, clip]
  · rw [ht, hb]; norm_num [hexBlue, clip]
  · rw [ht, hb] at h; norm_num at h

/-- C156: the colour (0.6, 0.4, 0.2), saturated by 50 percent in HSL, is (0.7, 0.4, 0.1); by 500 percent (0.8, 0.4, 0); luminated by 25 percent (0.75, 0.5, 0.25), as in RGB; luminated by -100 percent
it is transparent black. -/
example (w : World) :
    Makes (fun k => Adjust.saturate_in_hsl_space k (fin 0.5)) w (rgbOf 0.6 0.4 0.2 1 none) { rgbOf 0.6 0.4 0.2 1 none with comps := [fin 0.7, fin 0.4, fin 0.1] } ∧
    Makes (fun k => Adjust.saturate_in_hsl_space k (fin 5)) w (rgbOf 0.6 0.4 0.2 1 none) { rgbOf 0.6 0.4 0.2 1 none with comps := [fin 0.8, fin 0.4, fin 0] } ∧
    Makes (fun k => Adjust.luminate_in_hsl_space k (fin 0.25)) w (rgbOf 0.6 0.4 0.2 1 none) { rgbOf 0.6 0.4 0.2 1 none with comps := [fin ((1 + 0.25) * 0.6), fin ((1 + 0.25) * 0.4), fin ((1 + 0.25) * 0.2)] } ∧
    Makes (fun k => Adjust.luminate_in_hsl_space k (fin (-1))) w (rgbOf 0.6 0.4 0.2 1 none) { rgbOf 0.6 0.4 0.2 1 none with comps := [fin 0, fin 0, fin 0], malpha := 0 } := by
  have h : IsRgb (rgbOf 0.6 0.4 0.2 1 none) 0.6 0.4 0.2 := isRgb_rgbOf _ _ (by norm_num)
  have ht : top 0.6 0.4 0.2 = 0.6 := by norm_num [top]
  have hb : bot 0.6 0.4 0.2 = 0.2 := by norm_num [bot]
  have hl : lightness 0.6 0.4 0.2 = 0.4 := by rw [lightness, ht, hb]; norm_num
  have hr : room 0.4 = 0.8 := by rw [room, abs_of_nonpos (by norm_num)]; norm_num
  have a := fun p hp => C156_saturate_partial w _ _ _ _ 30 p h hue_example (by norm_num) (by norm_num) hp
  simp only [ht, hb, hl, hr] at a
  refine ⟨?_, ?_, ?_, ?_⟩
  · have := a 0.5 (by norm_num)
    norm_num [spread] at this ⊢
    exact this
  · have := a 5 (by norm_num)
    norm_num [spread] at this ⊢
    exact this
  · exact (C156_dark_partial w _ _ _ _ 30 0.25 h hue_example (by norm_num) (by norm_num) (by norm_num) (by norm_num) (by rw [hl]; norm_num) (by rw [hl]; norm_num)).1
  · exact (C156_black_violated w _ _ _ _ (-1) h le_rfl).1

/-- C156: luminated by 100 percent, (0.6, 0.4, 0.2) has the lightness 0.8 and is (0.9, 0.8, 0.7). -/
example (w : World) : Makes (fun k => Adjust.luminate_in_hsl_space k (fin 1)) w (rgbOf 0.6 0.4 0.2 1 none) { rgbOf 0.6 0.4 0.2 1 none with comps := [fin 0.9, fin 0.8, fin 0.7] } := by
  have h : IsRgb (rgbOf 0.6 0.4 0.2 1 none) 0.6 0.4 0.2 := isRgb_rgbOf _ _ (by norm_num)
  have ht : top 0.6 0.4 0.2 = 0.6 := by norm_num [top]
  have hb : bot 0.6 0.4 0.2 = 0.2 := by norm_num [bot]
  have hl : lightness 0.6 0.4 0.2 = 0.4 := by rw [lightness, ht, hb]; norm_num
  have hm : min ((1 + 1) * 0.4) 1 = (0.8 : ℝ) := by norm_num
  have hr : room 0.4 = 0.8 := by rw [room, abs_of_nonpos (by norm_num)]; norm_num
  have hr' : room 0.8 = 0.4 := by rw [room, abs_of_nonneg (by norm_num)]; norm_num
  have a := C156_luminate_partial w _ _ _ _ 30 1 h hue_example (by norm_num) (by norm_num) (by norm_num) (by norm_num)
  rw [hl, hm, hr, hr'] at a
  norm_num [spread] at a ⊢
  exact a

/-- C157: (0.6, 0.4, 0.2) brightened by 50 percent and darkened by a third is itself again; saturated in HSL by 50 percent and then by 100 percent it is saturated by 200 percent. -/
example (w : World) :
    (∃ d, Makes (fun k => Adjust.luminate_in_rgb_space k (fin 0.5)) w (rgbOf 0.6 0.4 0.2 1 none) d ∧
      Makes (fun k => Adjust.luminate_in_rgb_space k (fin (-0.5 / (1 + 0.5)))) w d (rgbOf 0.6 0.4 0.2 1 none)) ∧
    (∃ d e, Makes (fun k => Adjust.saturate_in_rgb_space k (fin 0.5)) w (rgbOf 0.6 0.4 0.2 1 none) d ∧ Makes (fun k => Adjust.saturate_in_rgb_space k (fin 1)) w d e ∧
      Makes (fun k => Adjust.saturate_in_rgb_space k (fin ((1 + 0.5) * (1 + 1) - 1))) w (rgbOf 0.6 0.4 0.2 1 none) e) ∧
    ∃ d e, Makes (fun k => Adjust.saturate_in_hsl_space k (fin 0.5)) w (rgbOf 0.6 0.4 0.2 1 none) d ∧ Makes (fun k => Adjust.saturate_in_hsl_space k (fin 1)) w d e ∧
      Makes (fun k => Adjust.saturate_in_hsl_space k (fin ((1 + 0.5) * (1 + 1) - 1))) w (rgbOf 0.6 0.4 0.2 1 none) e := by
  have h : IsRgb (rgbOf 0.6 0.4 0.2 1 none) 0.6 0.4 0.2 := isRgb_rgbOf _ _ (by norm_num)
  have ht : top 0.6 0.4 0.2 = 0.6 := by norm_num [top]
  refine ⟨(C157_undo_rgb w _ _ _ _ 0.5 h (by norm_num)).1 (by rw [ht]; norm_num), C157_saturate_rgb w _ _ _ _ 0.5 1 h ?_,
    C157_saturate_hsl_partial w _ _ _ _ 30 0.5 1 h hue_example (by norm_num) (by norm_num) (by norm_num) (by norm_num) (by norm_num) (by norm_num) (by norm_num) (Or.inl (by norm_num))⟩
  intro v hv
  simp only [List.mem_cons, List.not_mem_nil, or_false] at hv
  rcases hv with rfl | rfl | rfl <;> norm_num [luma]

/-- C157: an HSL colour of saturation 1/2, saturated by 40 percent and back. -/
example (w : World) (c : Color) (h : IsHsl c 120 (1 / 2) (1 / 4)) :
    (∃ d, Replaces (fun k => Adjust.saturate_in_hsl_space k (fin 0.4)) w c d ∧ Replaces (fun k => Adjust.saturate_in_hsl_space k (fin (-0.4 / (1 + 0.4)))) w d c) ∧
    ∃ d e, Replaces (fun k => Adjust.luminate_in_hsl_space k (fin 7)) w c d ∧ Replaces (fun k => Adjust.luminate_in_hsl_space k (fin 1)) w d e ∧
      Replaces (fun k => Adjust.luminate_in_hsl_space k (fin ((1 + 7) * (1 + 1) - 1))) w c e :=
  ⟨(C157_undo_hsl w c _ _ _ 0.4 h (by norm_num)).1 (by norm_num), (C157_hsl w c _ _ _ 7 1 h (by norm_num)).2 (Or.inl (by norm_num))⟩

end
