import Verif.Props.Combinations
import Verif.Props.RoundTrips
import Verif.ComplementLemmas
import Verif.ConvAlpha

/-! # Properties C77, C78 and C93: complements, monochromatic and analogous sets, opacity -/

open Outcome Fl Prog ObjectSpec ConvSpec BlendSpec CombineSpec

namespace CombineSpec
variable [FloatModel]

/-- `create_complimentary`, called with a pointer to `c`, wherever it is stored, returns a pointer to the new object `c'` and changes nothing else. -/
def Complements (w : World) (c c' : Color) : Prop :=
  ∀ (h : Heap) (i : Nat), h.world = w → h.colors[i]? = some c → ∃ k h', Combine.create_complimentary (some i) h = (ok k, h') ∧ IsNew h h' k c' ∧ Frame h h'

theorem Complements.unique {w : World} {c a b : Color} (h1 : Complements w c a) (h2 : Complements w c b) : a = b := by
  obtain ⟨k, h', e, ⟨q, rfl, -, hq⟩, -⟩ := h1 ⟨w, [c]⟩ 0 rfl rfl
  obtain ⟨k', h'', e', ⟨q', rfl, -, hq'⟩, -⟩ := h2 ⟨w, [c]⟩ 0 rfl rfl
  rw [e, Prod.mk.injEq, ok_inj, Option.some.injEq] at e'
  obtain ⟨rfl, rfl⟩ := e'
  rw [hq] at hq'
  exact Option.some.inj hq'

/-- The complement of every colour that can be converted to HSL and back. -/
theorem Base.complement {w : World} {s : ColorType} {c : Color} (hb : Base w s c) :
    ∃ r, Complements w c r ∧ Rehued w s c (fun x => x + rnd 1 * (360 / rnd 2)) r ∧ Base w s r ∧ r.space = c.space := by
  obtain ⟨d, x, y, z, e, hd, hcv⟩ := hb.hsl
  obtain ⟨r, er, hr, hsp⟩ := val_to_total (s := .hsl) (t := s) (w := w) (by simp) hb.defined (Combine.mkHsl_color (x + rnd 1 * (360 / rnd 2)) y z c.alpha c.space)
    (fun hh _ => hb.space (hh.resolve_left (by simp [Cie])))
  have hsp : r.space = c.space := hsp
  refine ⟨r, ?_, hb.rehued (f := fun x => x + rnd 1 * (360 / rnd 2)) hd hcv er, ⟨hb.defined, hb.notLch, hr, by rw [hsp]; exact hb.space⟩, hsp⟩
  intro h i hw hi
  subst hw
  obtain ⟨k, h', r', e1, f, l, here, v, -⟩ := Combine.complement_run hb.target hb.col hi hb.space e hd
  rw [er, ok_inj] at v
  subst v
  exact ⟨some k, h', e1, ⟨k, rfl, l, here⟩, f⟩

end CombineSpec

/-! ## C77 -/

section
variable [FloatModel] [ExactModel]

theorem half_turn (x : ℝ) : fin x + rnd 1 * (360 / rnd 2) = fin (x + 180) := by
  simp only [rnd_exact, lit_def]
  rw [div_exact _ _ (by norm_num)]
  simp only [mul_exact, add_exact, fin.injEq]
  norm_num

/-- The complement of an HSL colour. -/
theorem hsl_complement (w : World) (c : Color) (x y z : ℝ) (hc : IsHsl c x y z) : Complements w c { c with comps := [fin (min (angle (x + 180)) 359), fin y, fin z] } := by
  obtain ⟨r, h1, h2, -⟩ := (hc.base w).complement
  rwa [hc.rehued (half_turn x) h2] at h1

omit [ExactModel] in
theorem angle_half {x : ℝ} (x0 : 0 ≤ x) (x1 : x < 360) : angle (x + 180) = if x < 180 then x + 180 else x - 180 := by
  unfold angle
  split
  · exact Color.fract_small (by linarith) (by linarith)
  · have : (x + 180) / 360 = (x - 180) / 360 + (1 : ℤ) := by push_cast; ring
    rw [this, Int.fract_add_intCast, Color.fract_small (by linarith) (by linarith)]

omit [ExactModel] in
theorem hsl_with {c : Color} {x y z : ℝ} (hc : IsHsl c x y z) {x' : ℝ} (h0 : 0 ≤ x') (h1 : x' ≤ 359) : IsHsl { c with comps := [fin x', fin y, fin z] } x' y z :=
  ⟨⟨hc.col.cls, hc.col.ctype, rfl, hc.col.maxv, hc.col.minv⟩, rfl, h0, h1, hc.y0, hc.y1, hc.z0, hc.z1⟩

/-- **C77 (partial)** The complement of the complement of an HSL colour is the colour, unless its hue is strictly between 179 and 180 degrees (`C77_hsl_violated`). -/
theorem C77_hsl_partial (w : World) (c : Color) (x y z : ℝ) (hc : IsHsl c x y z) (hgap : ¬ (179 < x ∧ x < 180)) : ∃ c', Complements w c c' ∧ Complements w c' c := by
  have hx := angle_half hc.x0 (by linarith [hc.x1])
  refine ⟨_, hsl_complement w c x y z hc, ?_⟩
  have h0 := hc.x0
  have h1 := hc.x1
  have key : ∃ v, angle (x + 180) = v ∧ 0 ≤ v ∧ v ≤ 359 ∧ (if v < 180 then v + 180 else v - 180) = x := by
    by_cases h : x < 180
    · rw [if_pos h] at hx
      refine ⟨_, hx, by linarith, ?_, ?_⟩
      · by_contra hh
        exact hgap ⟨by linarith [not_le.mp hh], h⟩
      · rw [if_neg (by linarith)]; ring
    · rw [if_neg h] at hx
      refine ⟨_, hx, by linarith, by linarith, ?_⟩
      rw [if_pos (by linarith)]; ring
  obtain ⟨v, hv, v0, v1, hv'⟩ := key
  rw [hv, min_eq_left v1]
  have := hsl_complement w _ v y z (hsl_with hc v0 v1)
  rw [angle_half v0 (by linarith), hv', min_eq_left h1] at this
  simpa only [← hc.comps] using this

/-- **C77 violated** For a hue strictly between 179 and 180 the complement of the complement is another colour: its hue is 179. -/
theorem C77_hsl_violated (w : World) (c : Color) (x y z : ℝ) (hc : IsHsl c x y z) (hgap : 179 < x ∧ x < 180) :
    ∃ c', Complements w c c' ∧ Complements w c' { c with comps := [fin 179, fin y, fin z] } ∧ ¬ Complements w c' c := by
  have h1 := hsl_complement w c x y z hc
  rw [angle_half hc.x0 (by linarith [hc.x1]), if_pos hgap.2, min_eq_right (by linarith [hgap.1])] at h1
  have h2 := hsl_complement w _ 359 y z (hsl_with hc (by norm_num) le_rfl)
  rw [angle_half (by norm_num) (by norm_num), if_neg (by norm_num), min_eq_left (by norm_num), show (359 : ℝ) - 180 = 179 by norm_num] at h2
  refine ⟨_, h1, h2, fun h3 => ?_⟩
  have := congrArg Color.comps (h2.unique h3)
  rw [hc.comps] at this
  simp only [List.cons.injEq, fin.injEq, and_true] at this
  linarith [hgap.1]

/-- **C77** The complement of an RGB colour, in closed form: every channel is reflected between the largest and the smallest channel.  Black is excluded, which becomes
transparent on the way through HSL, and so are colours with a hue strictly between 359 and 360 or between 179 and 180 degrees. -/
theorem C77_rgb_formula (w : World) (c : Color) (r g b : ℝ) (h : IsRgb c r g b) (hb : ¬ (r = 0 ∧ g = 0 ∧ b = 0)) (hg1 : ¬ HueGap r g b) (hg2 : ¬ (b < g ∧ 60 * (g - b) < g - r)) :
    Complements w c { c with comps := [fin (max (max r g) b + min (min r g) b - r), fin (max (max r g) b + min (min r g) b - g),
      fin (max (max r g) b + min (min r g) b - b)] } := by
  have hbase : Base w .rgbDeep c := ⟨by simp, by simp, h.col, by simp [Cie]⟩
  obtain ⟨q, h1, h2, -⟩ := hbase.complement
  obtain ⟨x, y, z, e1, e2⟩ := Hue.complement_rgb h hb hg1 hg2
  have hv : Rehued w .rgbDeep c (fun x => x + rnd 1 * (360 / rnd 2))
      (Hue.obj .rgbDeep (max (max r g) b + min (min r g) b - r) (max (max r g) b + min (min r g) b - g) (max (max r g) b + min (min r g) b - b) c.malpha c.space) := by
    refine hbase.rehued (d := Hue.obj .hsl x y z c.malpha c.space) (x := fin x) (y := fin y) (z := fin z) rfl ((converts_iff (by simp) (by simp) h.col).mpr e1) ?_
    have hal : c.alpha = c.malpha := by rw [Color.alpha, h.col.cls]; rfl
    rw [half_turn, hal]
    exact e2
  rw [hbase.rehued_unique h2 hv, obj_rgb h] at h1
  exact h1

/-- **C77 (partial)** The complement of the complement of an RGB colour is the colour.  Missing: black (`C77_black_violated`) and hues strictly between 359 and 360 or 179 and 180
degrees. -/
theorem C77_rgb_partial (w : World) (c : Color) (r g b : ℝ) (h : IsRgb c r g b) (hb : ¬ (r = 0 ∧ g = 0 ∧ b = 0)) (hg1 : ¬ HueGap r g b) (hg2 : ¬ (b < g ∧ 60 * (g - b) < g - r)) :
    ∃ c', Complements w c c' ∧ Complements w c' c := by
  refine ⟨_, C77_rgb_formula w c r g b h hb hg1 hg2, ?_⟩
  set M := max (max r g) b with hM
  set m := min (min r g) b with hm
  have r0 := h.r0; have r1 := h.r1; have g0 := h.g0; have g1 := h.g1; have b0 := h.b0; have b1 := h.b1
  have mr : m ≤ r := (min_le_left _ _).trans (min_le_left _ _)
  have mg : m ≤ g := (min_le_left _ _).trans (min_le_right _ _)
  have mb : m ≤ b := min_le_right _ _
  have Mr : r ≤ M := (le_max_left _ _).trans (le_max_left _ _)
  have Mg : g ≤ M := (le_max_right _ _).trans (le_max_left _ _)
  have Mb : b ≤ M := le_max_right _ _
  have M1 : M ≤ 1 := max_le (max_le r1 g1) b1
  have m0 : 0 ≤ m := le_min (le_min r0 g0) b0
  have hmax : max (max (M + m - r) (M + m - g)) (M + m - b) = M := by
    rw [max_sub_sub_left, max_sub_sub_left, ← hm]; ring
  have hmin : min (min (M + m - r) (M + m - g)) (M + m - b) = m := by
    rw [min_sub_sub_left, min_sub_sub_left, ← hM]; ring
  have h' : IsRgb { c with comps := [fin (M + m - r), fin (M + m - g), fin (M + m - b)] } (M + m - r) (M + m - g) (M + m - b) :=
    ⟨⟨h.col.cls, h.col.ctype, rfl, h.col.maxv, h.col.minv⟩, rfl, by linarith, by linarith, by linarith, by linarith, by linarith, by linarith⟩
  have := C77_rgb_formula w _ _ _ _ h' ?_ ?_ ?_
  · rw [hmax, hmin] at this
    simpa only [sub_sub_cancel, ← h.comps] using this
  · rintro ⟨a1, a2, a3⟩
    rw [a1, a2, a3, max_self, max_self] at hmax
    exact hb ⟨by linarith, by linarith, by linarith⟩
  · rintro ⟨a1, a2⟩
    exact hg2 ⟨by linarith, by linarith⟩
  · rintro ⟨a1, a2⟩
    exact hg1 ⟨by linarith, by linarith⟩

/-- **C77 violated** The complement of black is black but fully transparent, so a black that is not transparent is not the complement of its complement. -/
theorem C77_black_violated (w : World) (c : Color) (h : IsRgb c 0 0 0) (ha : c.malpha ≠ 0) : ∃ c', Complements w c c' ∧ c'.comps = c.comps ∧ c'.malpha = 0 ∧ ¬ Complements w c' c := by
  have key : ∀ c : Color, IsRgb c 0 0 0 → Complements w c { c with malpha := 0 } := by
    intro c h
    have hbase : Base w .rgbDeep c := ⟨by simp, by simp, h.col, by simp [Cie]⟩
    obtain ⟨q, h1, h2, -⟩ := hbase.complement
    have e1 : Val.to .rgbDeep .hsl w c = ok (Color.mkHue .hsl 0 0 0 c.malpha c.space) := by
      rw [Val.to, if_neg (by simp)]
      show Leaf.rgb_deep_to_hsl c = _
      rw [Hue.rgb_eq h]
      simp only [Leaf.rgb_deep_to_hsl, Hue.obj_0, Hue.obj_1, Hue.obj_2, Hue.obj_space, Hue.obj_malpha, Hue.obj_alpha _ _ _ _ _ _ (rfl : Color.scalesAlpha .rgbDeep = false), ok_bind,
        fmin_fin, fmax_fin, feq_fin, Color.construct_hsl, max_self, min_self, if_true, zero_def]
    have hv : Rehued w .rgbDeep c (fun x => x + rnd 1 * (360 / rnd 2)) { c with malpha := 0 } := by
      refine hbase.rehued (d := Color.mkHue .hsl 0 0 0 c.malpha c.space) (x := Color.clamp (Color.hueReduce 0) 359 0) (y := Color.clamp 0 1 0) (z := Color.clamp 0 1 0) rfl
        ((converts_iff (by simp) (by simp) h.col).mpr e1) ?_
      rw [Val.to, if_neg (by simp)]
      show Leaf.hsl_to_rgb_deep _ = _
      have hz : Color.clamp (Color.clamp (0 : Fl) 1 0) 1 0 = fin 0 := by
        simp [Color.clamp_fin]
      have hz' : Color.clamp (0 : Fl) 1 0 = fin 0 := by simp [Color.clamp_fin]
      have g2 : (Color.mkHue .hsl (Color.clamp (Color.hueReduce 0) 359 0 + rnd 1 * (360 / rnd 2)) (Color.clamp 0 1 0) (Color.clamp 0 1 0) c.alpha c.space).getComponent 2 = ok (fin 0) := by
        rw [← hz]; rfl
      have g1 : (Color.mkHue .hsl (Color.clamp (Color.hueReduce 0) 359 0 + rnd 1 * (360 / rnd 2)) (Color.clamp 0 1 0) (Color.clamp 0 1 0) c.alpha c.space).getComponent 1 = ok (fin 0) := by
        rw [← hz]; rfl
      have g0 : ∃ v, (Color.mkHue .hsl (Color.clamp (Color.hueReduce 0) 359 0 + rnd 1 * (360 / rnd 2)) (Color.clamp 0 1 0) (Color.clamp 0 1 0) c.alpha c.space).getComponent 0 = ok v := ⟨_, rfl⟩
      obtain ⟨v, g0⟩ := g0
      simp only [Leaf.hsl_to_rgb_deep, g0, g1, g2, ok_bind, zero_def, feq_fin, if_true]
      conv_rhs => rw [h.eq]
      simp [Color.constructGrey, Color.construct_rgbDeep, Color.mkRgbDeep, Color.mkHue, hz', Color.clamp_fin, Hue.obj]
    rwa [hbase.rehued_unique h2 hv] at h1
  refine ⟨_, key c h, rfl, rfl, fun h3 => ?_⟩
  have := key { c with malpha := 0 } ⟨⟨h.col.cls, h.col.ctype, h.col.len, h.col.maxv, h.col.minv⟩, h.comps, le_rfl, zero_le_one, le_rfl, zero_le_one, le_rfl, zero_le_one⟩
  exact ha (congrArg Color.malpha (this.unique h3)).symm

/-- Cases: orange and a blue are complements; the hypotheses of the violations can be met. -/
example (w : World) : Complements w (rgbOf 1 0.5 0 1 none) { rgbOf 1 0.5 0 1 none with comps := [fin 0, fin 0.5, fin 1] } := by
  have := C77_rgb_formula w _ 1 0.5 0 (isRgb_rgbOf 1 none (by norm_num)) (by norm_num) (by norm_num [HueGap]) (by norm_num)
  norm_num at this ⊢
  exact this
example (w : World) : ∃ c', Complements w (rgbOf 1 0.5 0 1 none) c' ∧ Complements w c' (rgbOf 1 0.5 0 1 none) :=
  C77_rgb_partial w _ 1 0.5 0 (isRgb_rgbOf 1 none (by norm_num)) (by norm_num) (by norm_num [HueGap]) (by norm_num)
example (w : World) : ∃ c c', IsHsl c 300 1 0.5 ∧ Complements w c c' ∧ Complements w c' c := by
  obtain ⟨c, -, hc, -⟩ := exists_hsl 300 1 0.5 1 none (by norm_num)
  obtain ⟨c', h⟩ := C77_hsl_partial w c _ _ _ hc (by norm_num)
  exact ⟨c, c', hc, h⟩
example (w : World) : ∃ c c', IsHsl c 179.5 1 0.5 ∧ Complements w c c' ∧ ¬ Complements w c' c := by
  obtain ⟨c, -, hc, -⟩ := exists_hsl 179.5 1 0.5 1 none (by norm_num)
  obtain ⟨c', h1, -, h2⟩ := C77_hsl_violated w c _ _ _ hc (by norm_num)
  exact ⟨c, c', hc, h1, h2⟩
example (w : World) : ∃ c', Complements w (rgbOf 0 0 0 1 none) c' ∧ c'.malpha = 0 := by
  obtain ⟨c', h1, -, h2, -⟩ := C77_black_violated w _ (isRgb_rgbOf (r := 0) (g := 0) (b := 0) 1 none (by norm_num)) (by simp [rgbOf])
  exact ⟨c', h1, h2⟩

end
