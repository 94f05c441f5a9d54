import Verif.Props.Adjustments
import Verif.Props.SingleDistance

/-!
# The RGB adjustments in single precision (C171)

The specification is that of C95: `luma`, `unit` and the two formulas on real numbers.
-/

open Outcome Fl Prog ObjectSpec ConvSpec BlendSpec CombineSpec AdjustSpec

namespace AdjustSpec

/-- What saturating by `p` makes of the channel `v` of the colour `r`, `g`, `b`. -/
noncomputable def saturated (r g b p v : ℝ) : ℝ := unit (luma r g b + (1 + p) * (v - luma r g b))

/-- What luminating by `p` makes of the channel `v`. -/
noncomputable def luminated (p v : ℝ) : ℝ := unit ((1 + p) * v)

/-- Limiting does not increase distances. -/
theorem unit_close (x y : ℝ) : |unit x - unit y| ≤ |x - y| :=
  (abs_max_sub_max_le_abs _ _ _).trans ((abs_min_sub_min_le_max x 1 y 1).trans (by simp))

theorem unit_mem (x : ℝ) : 0 ≤ unit x ∧ unit x ≤ 1 := ⟨le_max_right _ _, max_le (min_le_right _ _) zero_le_one⟩

theorem clamp_unit [FloatModel] (x : ℝ) : Color.clamp (fin x) 1 0 = fin (unit x) := by rw [one_def, zero_def, Color.clamp_fin]; rfl

section
variable [FloatModel] [FineError]

theorem luma_near {x y z : ℝ} (hx : 0 ≤ x ∧ x ≤ 1) (hy : 0 ≤ y ∧ y ≤ 1) (hz : 0 ≤ z ∧ z ≤ 1) : Appr (lit 0.299 * fin x + lit 0.587 * fin y + lit 0.114 * fin z) (luma x y z) 1 4.2 := by
  have e : ∀ {v : ℝ}, 0 ≤ v ∧ v ≤ 1 → Appr (fin v) v 1 0 := fun h => Appr.exact (by rw [abs_of_nonneg h.1]; exact h.2)
  have l : ∀ k : ℝ, 0.1 ≤ k → k ≤ 1 → Appr (lit k) k k 1 := fun k h0 h1 =>
    Appr.lit (le_of_eq (abs_of_pos (by norm_num at *; linarith))) (le_trans (by norm_num) h0) (h1.trans (by norm_num))
  have p1 := (l 0.299 (by norm_num) (by norm_num)).mul (e hx) (by norm_num) (by norm_num) (by norm_num) (by norm_num)
  have p2 := (l 0.587 (by norm_num) (by norm_num)).mul (e hy) (by norm_num) (by norm_num) (by norm_num) (by norm_num)
  have p3 := (l 0.114 (by norm_num) (by norm_num)).mul (e hz) (by norm_num) (by norm_num) (by norm_num) (by norm_num)
  have s1 := p1.add p2 2.2 (by norm_num) (by norm_num) (by norm_num) (by norm_num) (by norm_num)
  have s2 := s1.add p3 3.2 (by norm_num) (by norm_num) (by norm_num) (by norm_num) (by norm_num)
  exact s2.weaken (by norm_num) (by norm_num)

/-- One saturated channel, before it is limited. -/
theorem saturate_near {x y z p v : ℝ} (hx : 0 ≤ x ∧ x ≤ 1) (hy : 0 ≤ y ∧ y ≤ 1) (hz : 0 ≤ z ∧ z ≤ 1) (hv : 0 ≤ v ∧ v ≤ 1) (hp : |p| ≤ 400) :
    Near (fin v - fin p * (lit 0.299 * fin x + lit 0.587 * fin y + lit 0.114 * fin z - fin v)) (luma x y z + (1 + p) * (v - luma x y z)) ((3 + 2 * |p|) / 10 ^ 6) := by
  have ev : Appr (fin v) v 1 0 := Appr.exact (by rw [abs_of_nonneg hv.1]; exact hv.2)
  have p0 := abs_nonneg p
  have ep : Appr (fin p) p (|p| + 1) 0 := Appr.exact (by linarith)
  have d := (luma_near hx hy hz).sub ev 4.2 le_rfl (by norm_num) (by norm_num) (by norm_num) (by norm_num)
  have m := ep.mul d (by norm_num) (by norm_num) (by norm_num; linarith) (by norm_num; linarith)
  have f := ev.sub m 6.4 (by norm_num) (by norm_num) (by norm_num) (by norm_num; linarith) (by norm_num; linarith)
  have h := f.near
  rw [show v - p * (luma x y z - v) = luma x y z + (1 + p) * (v - luma x y z) by ring] at h
  refine h.weaken ?_
  norm_num
  linarith

/-- One luminated channel, before it is limited. -/
theorem luminate_near {p v : ℝ} (hv : 0 ≤ v ∧ v ≤ 1) (hp : |p| ≤ 400) : Near (fin v * (1 + fin p)) ((1 + p) * v) ((3 + 2 * |p|) / 10 ^ 6) := by
  have ev : Appr (fin v) v 1 0 := Appr.exact (by rw [abs_of_nonneg hv.1]; exact hv.2)
  have p0 := abs_nonneg p
  have e1 : Appr (1 : Fl) 1 1 0 := by rw [one_def]; exact Appr.exact (by simp)
  have ep : Appr (fin p) p |p| 0 := Appr.exact le_rfl
  have s := e1.add ep 0 le_rfl le_rfl (by norm_num) (by norm_num; linarith) (by linarith)
  have m := ev.mul s (by norm_num) (by norm_num) (by norm_num; linarith) (by linarith)
  have h := m.near
  rw [mul_comm v] at h
  refine h.weaken ?_
  norm_num
  linarith

theorem limit_of {X : Fl} {t e : ℝ} (h : Near X t e) : ∃ y, Color.clamp X 1 0 = fin y ∧ (0 ≤ y ∧ y ≤ 1) ∧ |y - unit t| ≤ e := by
  obtain ⟨y, rfl, hy⟩ := h
  exact ⟨unit y, clamp_unit y, unit_mem y, (unit_close y t).trans hy⟩

end

/-- The new colours the two functions make of a colour of type RGB_DEEP, in every arithmetic. -/
theorem rgb_forms [FloatModel] (w : World) (c : Color) (r g b : ℝ) (p : Fl) (h : IsRgb c r g b) :
    Makes (fun q => Adjust.saturate_in_rgb_space q p) w c { c with comps :=
      [Color.clamp (fin r - p * (lit 0.299 * fin r + lit 0.587 * fin g + lit 0.114 * fin b - fin r)) 1 0, Color.clamp (fin g - p * (lit 0.299 * fin r + lit 0.587 * fin g + lit 0.114 * fin b - fin g)) 1 0,
        Color.clamp (fin b - p * (lit 0.299 * fin r + lit 0.587 * fin g + lit 0.114 * fin b - fin b)) 1 0] } ∧
    Makes (fun q => Adjust.luminate_in_rgb_space q p) w c { c with comps := [Color.clamp (fin r * (1 + p)) 1 0, Color.clamp (fin g * (1 + p)) 1 0, Color.clamp (fin b * (1 + p)) 1 0] } := by
  have hb : Base w .rgbDeep c := ⟨by simp, by simp, h.col, by simp [Cie]⟩
  have hal : c.alpha = c.malpha := by rw [Hue.rgb_eq h]; rfl
  obtain ⟨d, x, y, z, L, e1, hx, rfl, ⟨e, r1, a1, a2, a3⟩, ⟨e', r2, b1, b2, b3⟩⟩ := C95_converted p .rgbDeep w c hb
  have e1 := (converts_iff (by simp) (by simp) h.col).mp e1
  rw [Val.to, if_pos rfl, ok_inj] at e1
  subst e1
  rw [h.comps] at hx
  simp only [List.cons.injEq, and_true] at hx
  obtain ⟨rfl, rfl, rfl⟩ := hx
  rw [Color.construct_rgbDeep, ok_inj] at a1 b1
  have a2 := (converts_iff (s := .rgbDeep) (by simp) (by simp) (by rw [← a1]; exact Adjust.mkRgb_color ..)).mp a2
  have b2 := (converts_iff (s := .rgbDeep) (by simp) (by simp) (by rw [← b1]; exact Adjust.mkRgb_color ..)).mp b2
  rw [Val.to, if_pos rfl, ok_inj] at a2 b2
  constructor
  · rw [← a2, ← a1] at a3
    convert a3 using 1
    simp only [Color.mkRgbDeep, hal]
    conv_lhs => rw [Hue.rgb_eq h]
    rfl
  · rw [← b2, ← b1] at b3
    convert b3 using 1
    simp only [Color.mkRgbDeep, hal]
    conv_lhs => rw [Hue.rgb_eq h]
    rfl

section
variable [FloatModel] [FineError]

theorem byte_unit {R : ℕ} (hR : R ≤ 255) : ∃ r : ℝ, Color.clamp (fin R / 255) 1 0 = fin r ∧ (0 ≤ r ∧ r ≤ 1) ∧ |r - R / 255| ≤ 12 / 10 ^ 8 := by
  have h1 : (R : ℝ) ≤ 255 := by exact_mod_cast hR
  have hq0 : (0 : ℝ) ≤ R / 255 := by positivity
  have hq : (R : ℝ) / 255 ≤ 1 := by linarith
  obtain ⟨y, e, n⟩ := FineError.rnd_near ((R : ℝ) / 255) (by rw [abs_of_nonneg hq0]; exact hq.trans (by norm_num))
  rw [abs_of_nonneg hq0] at n
  have hd : fin (R : ℝ) / (255 : Fl) = fin y := by rw [lit_def, fin_div _ _ (by norm_num), e]
  have := limit_of (X := fin (R : ℝ) / 255) (t := (R : ℝ) / 255) (e := 12 / 10 ^ 8) ⟨y, hd, n.trans (by norm_num at *; linarith)⟩
  rwa [unit_id hq0 hq] at this

/-- The nearest 8-bit channel of a deep channel. -/
theorem back {v : ℝ} (hv : 0 ≤ v ∧ v ≤ 1) : ∃ V : ℕ, V ≤ 255 ∧ Color.clamp (Fl.round (fin v * 255)) 255 0 = fin V ∧ |(V : ℝ) - 255 * v| ≤ 1 / 2 + 1 / 20000 := by
  obtain ⟨y, ey, hy⟩ := FineError.rnd_near (v * 255) (by rw [abs_of_nonneg (by linarith)]; linarith [hv.2])
  have hy0 : 0 ≤ y := by
    have := FloatModel.rnd_mono 0 (v * 255) (by linarith)
    rw [FloatModel.rnd_zero, ey] at this
    simpa using this
  rw [abs_of_nonneg (by linarith : 0 ≤ v * 255)] at hy
  have hr : roundR y = ⌊y + 1/2⌋ := by rw [roundR, if_pos hy0]
  have r0 : 0 ≤ roundR y := by rw [hr]; exact Int.floor_nonneg.mpr (by linarith)
  have hy2 : |y - v * 255| ≤ 1 / 20000 := hy.trans (by norm_num at *; linarith)
  rw [abs_le] at hy2
  have r1 : roundR y ≤ 255 := by
    rw [hr, ← Int.lt_add_one_iff, Int.floor_lt]
    push_cast
    linarith [hv.2]
  obtain ⟨V, hV⟩ := Int.eq_ofNat_of_zero_le r0
  have hV1 : V ≤ 255 := by omega
  have hV2 : (V : ℝ) ≤ 255 := by exact_mod_cast hV1
  refine ⟨V, hV1, ?_, ?_⟩
  · simp only [lit_def, zero_def, fin_mul, ey, round_fin, hV, Int.cast_natCast, Color.clamp_fin, min_eq_left hV2, max_eq_left (Nat.cast_nonneg V)]
  · have f1 := Int.floor_le (y + 1/2)
    have f2 := Int.lt_floor_add_one (y + 1/2)
    rw [← hr, hV] at f1 f2
    simp only [Int.cast_natCast] at f1 f2
    rw [abs_le]
    constructor <;> linarith

/-- The 8-bit colour of a deep colour. -/
theorem to_bytes {w : World} {e q : Color} {x y z : ℝ} {al : Fl} {sp : Option Nat} (he : Color.construct .rgbDeep [fin x, fin y, fin z] al sp = ok e) (hq : Converts w e .rgbTrue q) :
    ∃ X Y Z : ℕ, IsBytes q X Y Z ∧ |(X : ℝ) - 255 * unit x| ≤ 1 / 2 + 1 / 20000 ∧ |(Y : ℝ) - 255 * unit y| ≤ 1 / 2 + 1 / 20000 ∧ |(Z : ℝ) - 255 * unit z| ≤ 1 / 2 + 1 / 20000 := by
  rw [Color.construct_rgbDeep, ok_inj] at he
  have hq := (converts_iff (s := .rgbDeep) (by simp) (by simp) (by rw [← he]; exact Adjust.mkRgb_color ..)).mp hq
  obtain ⟨X, X1, eX, nX⟩ := back (unit_mem x)
  obtain ⟨Y, Y1, eY, nY⟩ := back (unit_mem y)
  obtain ⟨Z, Z1, eZ, nZ⟩ := back (unit_mem z)
  have v : Val.to .rgbDeep .rgbTrue w e = Leaf.rgb_deep_to_rgb_true e := rfl
  rw [v, ← he] at hq
  simp only [Leaf.rgb_deep_to_rgb_true, Color.mkRgbDeep, Conv.get3_0, Conv.get3_1, Conv.get3_2, ok_bind, clamp_unit] at hq
  have hf := Conv.construct_result (t := .rgbTrue) (by simp) rfl hq
  rw [Color.construct_rgbTrue, ok_inj] at hq
  refine ⟨X, Y, Z, ⟨hf.col, ?_, X1, Y1, Z1⟩, nX, nY, nZ⟩
  rw [← hq]
  simp only [Color.mkRgbTrue, eX, eY, eZ]

end

theorem step_of {V : ℕ} {y e t t' a b : ℝ} (h1 : |(V : ℝ) - 255 * unit y| ≤ 1 / 2 + 1 / 20000) (h2 : |y - t| ≤ e) (h3 : |t - t'| ≤ a) (h4 : 255 * (e + a) + 1 / 20000 ≤ b) :
    |(V : ℝ) - 255 * unit t'| ≤ 1 / 2 + b := by
  have h5 := (unit_close y t').trans ((abs_sub_le y t t').trans (add_le_add h2 h3))
  rw [abs_le] at h1 h5 ⊢
  constructor <;> linarith

theorem saturated_close {r g b r' g' b' p v v' a : ℝ} (hr : |r - r'| ≤ a) (hg : |g - g'| ≤ a) (hb : |b - b'| ≤ a) (hv : |v - v'| ≤ a) :
    |(luma r g b + (1 + p) * (v - luma r g b)) - (luma r' g' b' + (1 + p) * (v' - luma r' g' b'))| ≤ (1 + 2 * |p|) * a := by
  have hl : |luma r g b - luma r' g' b'| ≤ a := by
    unfold luma
    rw [abs_le] at *
    constructor <;> linarith
  have e : (luma r g b + (1 + p) * (v - luma r g b)) - (luma r' g' b' + (1 + p) * (v' - luma r' g' b')) = (v - v') + p * ((v - v') - (luma r g b - luma r' g' b')) := by ring
  rw [e]
  refine (abs_add_le _ _).trans ?_
  rw [abs_mul]
  have h2 : |(v - v') - (luma r g b - luma r' g' b')| ≤ 2 * a := (abs_sub _ _).trans (by linarith)
  have := mul_le_mul_of_nonneg_left h2 (abs_nonneg p)
  linarith

end AdjustSpec

section
variable [FloatModel] [FineError]

/-- C171: the adjusted channels are those of the formulas up to (3 + 2|p|) millionths, and always between 0 and 1; nothing else changes. -/
theorem C171_rgb (w : World) (c : Color) (r g b p : ℝ) (h : IsRgb c r g b) (hp : |p| ≤ 400) :
    (∃ r' g' b' : ℝ, Makes (fun q => Adjust.saturate_in_rgb_space q (fin p)) w c { c with comps := [fin r', fin g', fin b'] } ∧ (0 ≤ r' ∧ r' ≤ 1) ∧ (0 ≤ g' ∧ g' ≤ 1) ∧ (0 ≤ b' ∧ b' ≤ 1) ∧
      |r' - saturated r g b p r| ≤ (3 + 2 * |p|) / 10 ^ 6 ∧ |g' - saturated r g b p g| ≤ (3 + 2 * |p|) / 10 ^ 6 ∧ |b' - saturated r g b p b| ≤ (3 + 2 * |p|) / 10 ^ 6) ∧
    ∃ r' g' b' : ℝ, Makes (fun q => Adjust.luminate_in_rgb_space q (fin p)) w c { c with comps := [fin r', fin g', fin b'] } ∧ (0 ≤ r' ∧ r' ≤ 1) ∧ (0 ≤ g' ∧ g' ≤ 1) ∧ (0 ≤ b' ∧ b' ≤ 1) ∧
      |r' - luminated p r| ≤ (3 + 2 * |p|) / 10 ^ 6 ∧ |g' - luminated p g| ≤ (3 + 2 * |p|) / 10 ^ 6 ∧ |b' - luminated p b| ≤ (3 + 2 * |p|) / 10 ^ 6 := by
  obtain ⟨m1, m2⟩ := rgb_forms w c r g b (fin p) h
  have hr := And.intro h.r0 h.r1
  have hg := And.intro h.g0 h.g1
  have hb := And.intro h.b0 h.b1
  constructor
  · obtain ⟨x, ex, rx, nx⟩ := limit_of (saturate_near hr hg hb hr hp)
    obtain ⟨y, ey, ry, ny⟩ := limit_of (saturate_near hr hg hb hg hp)
    obtain ⟨z, ez, rz, nz⟩ := limit_of (saturate_near hr hg hb hb hp)
    rw [ex, ey, ez] at m1
    exact ⟨x, y, z, m1, rx, ry, rz, nx, ny, nz⟩
  · obtain ⟨x, ex, rx, nx⟩ := limit_of (luminate_near hr hp)
    obtain ⟨y, ey, ry, ny⟩ := limit_of (luminate_near hg hp)
    obtain ⟨z, ez, rz, nz⟩ := limit_of (luminate_near hb hp)
    rw [ex, ey, ez] at m2
    exact ⟨x, y, z, m2, rx, ry, rz, nx, ny, nz⟩

/-- C171: adjusting by zero returns the same colour, to the last bit. -/
theorem C171_zero (w : World) (c : Color) (r g b : ℝ) (h : IsRgb c r g b) (fr : rnd r = fin r) (fg : rnd g = fin g) (fb : rnd b = fin b) (h1 : rnd 1 = fin 1) :
    Makes (fun q => Adjust.saturate_in_rgb_space q (fin 0)) w c c ∧ Makes (fun q => Adjust.luminate_in_rgb_space q (fin 0)) w c c := by
  obtain ⟨m1, m2⟩ := rgb_forms w c r g b (fin 0) h
  have hr := And.intro h.r0 h.r1
  have hg := And.intro h.g0 h.g1
  have hb := And.intro h.b0 h.b1
  have same : c = { c with comps := [fin r, fin g, fin b] } := by rw [← h.comps]
  obtain ⟨L, eL, -⟩ := (luma_near hr hg hb).near
  have s : ∀ v : ℝ, 0 ≤ v ∧ v ≤ 1 → rnd v = fin v → Color.clamp (fin v - fin 0 * (fin L - fin v)) 1 0 = fin v := fun v hv fv => by
    obtain ⟨u, eu⟩ : ∃ u, fin L - fin v = fin u := by
      obtain ⟨u, e, -⟩ := ((luma_near hr hg hb).sub (Appr.exact (B := 1) (by rw [abs_of_nonneg hv.1]; exact hv.2)) 4.2 le_rfl (by norm_num) (by norm_num) (by norm_num) (by norm_num)).near
      exact ⟨u, by rw [← eL, e]⟩
    rw [eu, fin_mul, zero_mul, FloatModel.rnd_zero, fin_sub, sub_zero, fv, clamp_unit, unit_id hv.1 hv.2]
  have l : ∀ v : ℝ, 0 ≤ v ∧ v ≤ 1 → rnd v = fin v → Color.clamp (fin v * (1 + fin 0)) 1 0 = fin v := fun v hv fv => by
    rw [one_def, fin_add, add_zero, h1, fin_mul, mul_one, fv, ← one_def, clamp_unit, unit_id hv.1 hv.2]
  rw [eL, s r hr fr, s g hg fg, s b hb fb, ← same] at m1
  rw [l r hr fr, l g hg fg, l b hb fb, ← same] at m2
  exact ⟨m1, m2⟩

/-- C171: adjusting a grey gives a grey, exactly, and luminating by -1 gives black, exactly. -/
theorem C171_grey (w : World) (c : Color) (v p : ℝ) (h : IsRgb c v v v) (hp : |p| ≤ 400) :
    (∃ v', Makes (fun q => Adjust.saturate_in_rgb_space q (fin p)) w c { c with comps := [fin v', fin v', fin v'] } ∧ |v' - v| ≤ (3 + 2 * |p|) / 10 ^ 6) ∧
    (∃ v', Makes (fun q => Adjust.luminate_in_rgb_space q (fin p)) w c { c with comps := [fin v', fin v', fin v'] }) ∧
    ∀ (d : Color) (r g b : ℝ), IsRgb d r g b → Makes (fun q => Adjust.luminate_in_rgb_space q (fin (-1))) w d { d with comps := [fin 0, fin 0, fin 0] } := by
  obtain ⟨m1, m2⟩ := rgb_forms w c v v v (fin p) h
  have hv := And.intro h.r0 h.r1
  refine ⟨?_, ?_, fun d r g b hd => ?_⟩
  · obtain ⟨x, ex, -, nx⟩ := limit_of (saturate_near hv hv hv hv hp)
    rw [ex] at m1
    refine ⟨x, m1, ?_⟩
    rwa [show luma v v v + (1 + p) * (v - luma v v v) = v by unfold luma; ring, unit_id hv.1 hv.2] at nx
  · obtain ⟨x, ex, -⟩ := limit_of (luminate_near hv hp)
    rw [ex] at m2
    exact ⟨x, m2⟩
  · have m := (rgb_forms w d r g b (fin (-1)) hd).2
    have z : (1 : Fl) + fin (-1) = fin 0 := by rw [one_def, fin_add, add_neg_cancel, FloatModel.rnd_zero]
    simp only [z, fin_mul, mul_zero, FloatModel.rnd_zero, clamp_unit, unit_id le_rfl zero_le_one] at m
    exact m

/-- C171: the adjusted 8-bit channels are whole numbers, and differ from those of the formulas by half a step and (3 + 2|p|)/3000. -/
theorem C171_bytes (w : World) (c : Color) (R G B : ℕ) (p : ℝ) (h : IsBytes c R G B) (hp : |p| ≤ 400) :
    (∃ (q : Color) (R' G' B' : ℕ), Makes (fun q => Adjust.saturate_in_rgb_space q (fin p)) w c q ∧ IsBytes q R' G' B' ∧
      |(R' : ℝ) - 255 * saturated (R / 255) (G / 255) (B / 255) p (R / 255)| ≤ 1 / 2 + (3 + 2 * |p|) / 3000 ∧
      |(G' : ℝ) - 255 * saturated (R / 255) (G / 255) (B / 255) p (G / 255)| ≤ 1 / 2 + (3 + 2 * |p|) / 3000 ∧
      |(B' : ℝ) - 255 * saturated (R / 255) (G / 255) (B / 255) p (B / 255)| ≤ 1 / 2 + (3 + 2 * |p|) / 3000) ∧
    ∃ (q : Color) (R' G' B' : ℕ), Makes (fun q => Adjust.luminate_in_rgb_space q (fin p)) w c q ∧ IsBytes q R' G' B' ∧
      |(R' : ℝ) - 255 * luminated p (R / 255)| ≤ 1 / 2 + (3 + 2 * |p|) / 3000 ∧ |(G' : ℝ) - 255 * luminated p (G / 255)| ≤ 1 / 2 + (3 + 2 * |p|) / 3000 ∧
      |(B' : ℝ) - 255 * luminated p (B / 255)| ≤ 1 / 2 + (3 + 2 * |p|) / 3000 := by
  have hb : Base w .rgbTrue c := ⟨by simp, by simp, h.col, by simp [Cie]⟩
  obtain ⟨d, x, y, z, L, e1, hx, rfl, ⟨e, q1, a1, a2, a3⟩, ⟨e', q2, b1, b2, b3⟩⟩ := C95_converted (fin p) .rgbTrue w c hb
  have e1 := (converts_iff (by simp) (by simp) h.col).mp e1
  obtain ⟨r, er, hr, nr⟩ := byte_unit h.red
  obtain ⟨g, eg, hg, ng⟩ := byte_unit h.green
  obtain ⟨b, eb, hb, nb⟩ := byte_unit h.blue
  have hd : d.comps = [fin r, fin g, fin b] := by
    have v : Val.to .rgbTrue .rgbDeep w c = Leaf.rgb_true_to_rgb_deep c := rfl
    rw [v] at e1
    have hc := h.comps
    obtain ⟨cls, ct, comps, al, mx, mn, sp⟩ := c
    simp only at hc
    subst hc
    simp only [Leaf.rgb_true_to_rgb_deep, Conv.get3_0, Conv.get3_1, Conv.get3_2, ok_bind, Color.construct_rgbDeep, ok_inj] at e1
    rw [← e1]
    simp only [Color.mkRgbDeep, er, eg, eb]
  rw [hd] at hx
  simp only [List.cons.injEq, and_true] at hx
  obtain ⟨rfl, rfl, rfl⟩ := hx
  have p0 := abs_nonneg p
  constructor
  · obtain ⟨x, ex, nx⟩ := saturate_near hr hg hb hr hp
    obtain ⟨y, ey, ny⟩ := saturate_near hr hg hb hg hp
    obtain ⟨z, ez, nz⟩ := saturate_near hr hg hb hb hp
    rw [ex, ey, ez] at a1
    obtain ⟨X, Y, Z, hq, dx, dy, dz⟩ := to_bytes a1 a2
    refine ⟨q1, X, Y, Z, a3, hq, step_of dx nx (saturated_close nr ng nb nr) ?_, step_of dy ny (saturated_close nr ng nb ng) ?_, step_of dz nz (saturated_close nr ng nb nb) ?_⟩ <;>
      (norm_num; linarith)
  · obtain ⟨x, ex, nx⟩ := luminate_near hr hp
    obtain ⟨y, ey, ny⟩ := luminate_near hg hp
    obtain ⟨z, ez, nz⟩ := luminate_near hb hp
    rw [ex, ey, ez] at b1
    obtain ⟨X, Y, Z, hq, dx, dy, dz⟩ := to_bytes b1 b2
    have cl : ∀ {v v' : ℝ}, |v - v'| ≤ 12 / 10 ^ 8 → |(1 + p) * v - (1 + p) * v'| ≤ (1 + 2 * |p|) * (12 / 10 ^ 8) := fun hv => by
      rw [← mul_sub, abs_mul]
      refine mul_le_mul ?_ hv (abs_nonneg _) (by linarith)
      exact (abs_add_le _ _).trans (by rw [abs_one]; linarith)
    refine ⟨q2, X, Y, Z, b3, hq, step_of dx nx (cl nr) ?_, step_of dy ny (cl ng) ?_, step_of dz nz (cl nb) ?_⟩ <;> (norm_num; linarith)

end

/-- Doubling the light of the 8-bit colour 100, 200, 7, in binary32. -/
example (w : World) (sp : Option Nat) : letI := Binary32.binary32
    ∃ c q : Color, ∃ R G B : ℕ, Color.construct .rgbTrue [fin (100 : ℕ), fin (200 : ℕ), fin (7 : ℕ)] 255 sp = ok c ∧ Makes (fun k => Adjust.luminate_in_rgb_space k (fin 1)) w c q ∧ IsBytes q R G B ∧
      (R = 200 ∧ G = 255 ∧ B = 14) := by
  letI := Binary32.binary32
  haveI := Binary32.binary32_fine
  obtain ⟨c, ec⟩ := Conv.construct_total .rgbTrue (vs := [fin ((100 : ℕ) : ℝ), fin ((200 : ℕ) : ℝ), fin ((7 : ℕ) : ℝ)]) 255 sp rfl
  have hf := Conv.construct_result (t := .rgbTrue) (by simp) rfl ec
  have hc : IsBytes c 100 200 7 := by
    refine ⟨hf.col, ?_, by norm_num, by norm_num, by norm_num⟩
    have cl : ∀ k : ℕ, k ≤ 255 → Color.clamp (fin (k : ℝ)) 255 0 = fin k := fun k hk => by
      have : (k : ℝ) ≤ 255 := by exact_mod_cast hk
      rw [show (255 : Fl) = fin 255 by simp, zero_def, Color.clamp_fin, min_eq_left this, max_eq_left (Nat.cast_nonneg k)]
    have ec' := ec
    rw [Color.construct_rgbTrue, ok_inj] at ec'
    rw [← ec']
    simp only [Color.mkRgbTrue, cl 100 (by norm_num), cl 200 (by norm_num), cl 7 (by norm_num)]
  obtain ⟨q, R, G, B, m, hq, n1, n2, n3⟩ := (C171_bytes w c 100 200 7 1 hc (by norm_num)).2
  have near : ∀ {a N : ℕ}, |(a : ℝ) - N| ≤ 1 / 2 + 5 / 3000 → a = N := fun {a N} h => by
    rw [abs_le] at h
    have h1 : (a : ℝ) < (N + 1 : ℕ) := by push_cast; linarith
    have h2 : (N : ℝ) < (a + 1 : ℕ) := by push_cast; linarith
    have h1 := Nat.cast_lt.mp h1
    have h2 := Nat.cast_lt.mp h2
    omega
  have u1 : luminated 1 ((100 : ℕ) / 255) = ((200 : ℕ) : ℝ) / 255 := by rw [luminated, unit, min_eq_left (by norm_num), max_eq_left (by norm_num)]; norm_num
  have u2 : luminated 1 ((200 : ℕ) / 255) = ((255 : ℕ) : ℝ) / 255 := by rw [luminated, unit, min_eq_right (by norm_num), max_eq_left (by norm_num)]; norm_num
  have u3 : luminated 1 ((7 : ℕ) / 255) = ((14 : ℕ) : ℝ) / 255 := by rw [luminated, unit, min_eq_left (by norm_num), max_eq_left (by norm_num)]; norm_num
  rw [u1, mul_div_cancel₀ _ (by norm_num), abs_one] at n1
  rw [u2, mul_div_cancel₀ _ (by norm_num), abs_one] at n2
  rw [u3, mul_div_cancel₀ _ (by norm_num), abs_one] at n3
  exact ⟨c, q, R, G, B, ec, m, hq, near (n1.trans (by norm_num)), near (n2.trans (by norm_num)), near (n3.trans (by norm_num))⟩
