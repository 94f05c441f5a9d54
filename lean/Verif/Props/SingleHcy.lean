import Verif.HcyNear
import Verif.Props.SingleGap

/-!
# The trip through HCY in single precision (C162)

HCY stores the same hue as HSV and HSL, so a slightly bluish red loses its hue here too; but the stored luma belongs to the original colour, and what comes back is darkened until it has that luma.
The blue is therefore lifted by only 0.9278 of the step that HSV and HSL make, and two more 8-bit reds survive.
-/

open Outcome Fl Prog ObjectSpec ConvSpec Hue GapFine

namespace HcyFine

section
variable [FloatModel] [FineError]

theorem rounded {s r ε M : ℝ} (h : |s - r| ≤ ε) (hr : |r| ≤ M) (e : ℝ) (hM : M + ε ≤ 1000) (he : ε + (M + ε) * 1.2e-7 + 1e-25 ≤ e) : Near (rnd s) r e := by
  obtain ⟨p, hp, np⟩ := round_of h hr hM
  exact ⟨p, hp, np.trans he⟩

theorem nadd {x y : Fl} {a b ε δ : ℝ} (hx : Near x a ε) (hy : Near y b δ) (M e : ℝ) (hr : |a + b| ≤ M) (hM : M + (ε + δ) ≤ 1000)
    (he : ε + δ + (M + (ε + δ)) * 1.2e-7 + 1e-25 ≤ e) : Near (x + y) (a + b) e := by
  obtain ⟨u, rfl, hu⟩ := hx; obtain ⟨v, rfl, hv⟩ := hy
  rw [fin_add]
  refine rounded ?_ hr e hM he
  rw [show u + v - (a + b) = (u - a) + (v - b) by ring]
  exact (abs_add_le _ _).trans (add_le_add hu hv)

theorem nsub {x y : Fl} {a b ε δ : ℝ} (hx : Near x a ε) (hy : Near y b δ) (M e : ℝ) (hr : |a - b| ≤ M) (hM : M + (ε + δ) ≤ 1000)
    (he : ε + δ + (M + (ε + δ)) * 1.2e-7 + 1e-25 ≤ e) : Near (x - y) (a - b) e := by
  obtain ⟨u, rfl, hu⟩ := hx; obtain ⟨v, rfl, hv⟩ := hy
  rw [fin_sub]
  refine rounded ?_ hr e hM he
  rw [show u - v - (a - b) = (u - a) - (v - b) by ring]
  exact (abs_sub _ _).trans (add_le_add hu hv)

theorem nmul {x y : Fl} {a b ε δ : ℝ} (hx : Near x a ε) (hy : Near y b δ) (A B e : ℝ) (hA : |a| ≤ A) (hB : |b| ≤ B) (hM : A * B + (A * δ + B * ε + ε * δ) ≤ 1000)
    (he : A * δ + B * ε + ε * δ + (A * B + (A * δ + B * ε + ε * δ)) * 1.2e-7 + 1e-25 ≤ e) : Near (x * y) (a * b) e := by
  have hx0 := hx.nonneg; have hy0 := hy.nonneg
  obtain ⟨u, rfl, hu⟩ := hx; obtain ⟨v, rfl, hv⟩ := hy
  have A0 := (abs_nonneg a).trans hA
  have B0 := (abs_nonneg b).trans hB
  rw [fin_mul]
  refine rounded ?_ (by rw [abs_mul]; exact mul_le_mul hA hB (abs_nonneg _) A0) e hM he
  rw [show u * v - a * b = a * (v - b) + b * (u - a) + (u - a) * (v - b) by ring]
  refine (abs_add_three _ _ _).trans ?_
  rw [abs_mul, abs_mul, abs_mul]
  gcongr

theorem nlit {v : ℝ} (h : |v| ≤ 1) : Near (lit v) v (|v| * 1.2e-7 + 1e-25) := by
  obtain ⟨p, hp, np⟩ := GapFine.round (r := v) (h.trans (by norm_num))
  exact ⟨p, hp, np⟩

/-- The luma of a colour. -/
theorem luma_fine {r g b : ℝ} (r0 : 0 ≤ r) (r1 : r ≤ 1) (g0 : 0 ≤ g) (g1 : g ≤ 1) (b0 : 0 ≤ b) (b1 : b ≤ 1) :
    Near (lit 0.2126 * fin r + lit 0.7152 * fin g + lit 0.0722 * fin b) (0.2126 * r + 0.7152 * g + 0.0722 * b) 6e-7 := by
  have key : ∀ m s : ℝ, 0 ≤ m → m ≤ 1 → 0 ≤ s → s ≤ 1 → Near (lit m * fin s) (m * s) (m * 2.5e-7 + 1e-9) := by
    intro m s m0 m1 s0 s1
    have h := nlit (v := m) (by rw [abs_of_nonneg m0]; exact m1)
    rw [abs_of_nonneg m0] at h
    refine nmul h (near_fin s) m 1 _ (by rw [abs_of_nonneg m0]) (by rw [abs_of_nonneg s0]; exact s1) ?_ ?_ <;> (norm_num; linarith)
  have h1 := key 0.2126 r (by norm_num) (by norm_num) r0 r1
  have h2 := key 0.7152 g (by norm_num) (by norm_num) g0 g1
  have h3 := key 0.0722 b (by norm_num) (by norm_num) b0 b1
  have h4 := nadd h1 h2 1 4e-7 (by rw [abs_of_nonneg (by positivity)]; norm_num; linarith) (by norm_num) (by norm_num)
  exact nadd h4 h3 1 6e-7 (by rw [abs_of_nonneg (by positivity)]; norm_num; linarith) (by norm_num) (by norm_num)

/-- The blue weight less the luma of the pure hue, at 359 degrees. -/
theorem blue_359 : Near
    (Leaf.clampFloat (2 - Fl.abs (fin 359 / 360 * 6 - 4)) 0 1 -
      (Leaf.clampFloat (Fl.abs (fin 359 / 360 * 6 - 3) - 1) 0 1 * lit 0.2126 + Leaf.clampFloat (2 - Fl.abs (fin 359 / 360 * 6 - 2)) 0 1 * lit 0.7152
        + Leaf.clampFloat (2 - Fl.abs (fin 359 / 360 * 6 - 4)) 0 1 * lit 0.0722)) (1 / 60 - (0.2126 + 1 / 60 * 0.0722)) 3e-6 := by
  simp only [lit_def, one_def, zero_def]
  have e1 : Near (fin 359 / fin 360) (359 / 360) 1.21e-7 := by
    rw [fin_div _ _ (by norm_num)]
    obtain ⟨p, hp, np⟩ := round0 (r := 359 / 360) (by norm_num) (by norm_num)
    exact ⟨p, hp, np.trans (by norm_num)⟩
  have e2 : Near (fin 359 / fin 360 * fin 6) (359 / 60) 1.5e-6 := by
    have := nmul e1 (near_fin 6) 1 6 1.5e-6 (by rw [abs_of_nonneg (by norm_num)]; norm_num) (by norm_num) (by norm_num) (by norm_num)
    rwa [show (359 / 360 * 6 : ℝ) = 359 / 60 by norm_num] at this
  have e3 := (nsub e2 (near_fin 3) 3 1.9e-6 (by rw [abs_of_nonneg (by norm_num)]; norm_num) (by norm_num) (by norm_num)).abs
  have e4 := (nsub e2 (near_fin 2) 4 2e-6 (by rw [abs_of_nonneg (by norm_num)]; norm_num) (by norm_num) (by norm_num)).abs
  have e5 := (nsub e2 (near_fin 4) 2 1.8e-6 (by rw [abs_of_nonneg (by norm_num)]; norm_num) (by norm_num) (by norm_num)).abs
  rw [abs_of_nonneg (by norm_num)] at e3 e4 e5
  obtain ⟨p, ep, np⟩ := nsub e3 (near_fin 1) 2 2.2e-6 (by rw [abs_of_nonneg (by norm_num)]; norm_num) (by norm_num) (by norm_num)
  obtain ⟨q, eq, nq⟩ := nsub (near_fin 2) e4 2 2.3e-6 (by rw [abs_of_nonpos (by norm_num)]; norm_num) (by norm_num) (by norm_num)
  have e6 := nsub (near_fin 2) e5 0.1 1.9e-6 (by rw [abs_of_nonneg (by norm_num)]; norm_num) (by norm_num) (by norm_num)
  rw [show (2 - (359 / 60 - 4) : ℝ) = 1 / 60 by norm_num] at e6
  have np' := abs_le.mp np
  have nq' := abs_le.mp nq
  have f1 : Leaf.clampFloat (fin p) (fin 0) (fin 1) = fin 1 := by
    unfold Leaf.clampFloat
    rw [fmax_fin, fmin_fin, max_eq_left (by norm_num at *; linarith), min_eq_right (by norm_num at *; linarith)]
  have f2 : Leaf.clampFloat (fin q) (fin 0) (fin 1) = fin 0 := by
    unfold Leaf.clampFloat
    rw [fmax_fin, fmin_fin, max_eq_right (by norm_num at *; linarith), min_eq_left (by norm_num at *)]
  have f3 : Near (Leaf.clampFloat (fin 2 - Fl.abs (fin 359 / fin 360 * fin 6 - fin 4)) (fin 0) (fin 1)) (1 / 60) 1.9e-6 := by
    have := near_ramp e6
    rw [ramp, max_eq_left (by norm_num), min_eq_left (by norm_num)] at this
    simpa only [one_def, zero_def] using this
  rw [ep, eq, f1, f2]
  have k1 := nmul (near_fin 1) (nlit (v := 0.2126) (by rw [abs_of_nonneg (by norm_num)]; norm_num)) 1 0.2126 6e-8 (by norm_num) (by rw [abs_of_nonneg (by norm_num)])
    (by rw [abs_of_nonneg (by norm_num)]; norm_num) (by rw [abs_of_nonneg (by norm_num)]; norm_num)
  have k2 := nmul (near_fin 0) (nlit (v := 0.7152) (by rw [abs_of_nonneg (by norm_num)]; norm_num)) 0 1 1e-20 (by norm_num) (by rw [abs_of_nonneg (by norm_num)]; norm_num)
    (by norm_num) (by norm_num)
  have k3 := nmul f3 (nlit (v := 0.0722) (by rw [abs_of_nonneg (by norm_num)]; norm_num)) 0.1 0.0722 1.5e-7 (by rw [abs_of_nonneg (by norm_num)]; norm_num) (by rw [abs_of_nonneg (by norm_num)])
    (by rw [abs_of_nonneg (by norm_num)]; norm_num) (by rw [abs_of_nonneg (by norm_num)]; norm_num)
  have k4 := nadd k1 k2 0.3 1e-7 (by rw [abs_of_nonneg (by norm_num)]; norm_num) (by norm_num) (by norm_num)
  have k5 := nadd k4 k3 0.3 3e-7 (by rw [abs_of_nonneg (by norm_num)]; norm_num) (by norm_num) (by norm_num)
  have k6 := nsub f3 k5 0.3 3e-6 (by rw [abs_of_nonpos (by norm_num)]; norm_num) (by norm_num) (by norm_num)
  rwa [show (1 / 60 - (1 * 0.2126 + 0 * 0.7152 + 1 / 60 * 0.0722) : ℝ) = 1 / 60 - (0.2126 + 1 / 60 * 0.0722) by norm_num] at k6

/-- The blue that comes back from HCY. -/
theorem hcy_window {c d : Color} {r g b x y z : ℝ} (h : IsRgb c r g b) (hw : Window r g b) (h1 : Leaf.rgb_deep_to_hcy c = ok d)
    (h2 : Leaf.hcy_to_rgb_deep d = ok { c with comps := [fin x, fin y, fin z] }) : |z - (b + 0.9278 * (g + (r - g) / 60 - b))| ≤ 5e-6 := by
  obtain ⟨hmx, hmn, hgb, hbr⟩ := hw.order
  obtain ⟨-, -, r0, r1, g0, g1, b0, b1⟩ := id h
  have δ0 : 0 ≤ r - g := by linarith
  have δ1 : r - g ≤ 1 := by linarith
  obtain ⟨C, eC, nC⟩ : Near (Color.clamp (fin r - fin g) 1 0) (r - g) 1.3e-7 :=
    (nsub (near_fin r) (near_fin g) 1 1.3e-7 (by rw [abs_of_nonneg δ0]; exact δ1) (by norm_num) (by norm_num)).clamp01 δ0 δ1
  obtain ⟨Y, eY, nY⟩ : Near (Color.clamp (lit 0.2126 * fin r + lit 0.7152 * fin g + lit 0.0722 * fin b) 1 0) (0.2126 * r + 0.7152 * g + 0.0722 * b) 6e-7 :=
    (luma_fine r0 r1 g0 g1 b0 b1).clamp01 (by positivity) (by norm_num; linarith)
  rw [rgb_eq h] at h1
  simp only [Leaf.rgb_deep_to_hcy, obj_0, obj_1, obj_2, obj_space, obj_malpha, obj_alpha _ _ _ _ _ _ (rfl : Color.scalesAlpha .rgbDeep = false), ok_bind, fmin_fin, fmax_fin, feq_fin, Color.construct_hcy,
    hmx, hmn] at h1
  rw [if_neg (hgb.trans hbr).ne', ok_inj] at h1
  have hd : obj .hcy 359 C Y c.malpha c.space = d := by
    rw [← h1]
    simp only [Color.mkHue, hue_359 hw, eC, eY, obj, Color.maxOf, Color.minOf]
  rw [← hd] at h2
  simp only [Leaf.hcy_to_rgb_deep, obj_0, obj_1, obj_2, obj_space, obj_malpha, obj_alpha _ _ _ _ _ _ (rfl : Color.scalesAlpha .hcy = false), ok_bind, Color.construct_rgbDeep,
    Color.mkRgbDeep, ok_inj, Color.mk.injEq, List.cons.injEq] at h2
  have e3 := h2.2.2.1.2.2.1
  have p1 := nmul blue_359 (⟨C, rfl, nC⟩ : Near (fin C) (r - g) 1.3e-7) 0.3 1 3.2e-6 (by rw [abs_of_nonpos (by norm_num)]; norm_num) (by rw [abs_of_nonneg δ0]; exact δ1) (by norm_num) (by norm_num)
  have hval : (1 / 60 - (0.2126 + 1 / 60 * 0.0722)) * (r - g) + (0.2126 * r + 0.7152 * g + 0.0722 * b) = b + 0.9278 * (g + (r - g) / 60 - b) := by ring
  have hm : |b + 0.9278 * (g + (r - g) / 60 - b)| ≤ 1 ∧ 0 ≤ b + 0.9278 * (g + (r - g) / 60 - b) ∧ b + 0.9278 * (g + (r - g) / 60 - b) ≤ 1 := by
    have : 0 ≤ b + 0.9278 * (g + (r - g) / 60 - b) ∧ b + 0.9278 * (g + (r - g) / 60 - b) ≤ 1 := by constructor <;> (norm_num; linarith)
    exact ⟨by rw [abs_of_nonneg this.1]; exact this.2, this⟩
  have p2 := nadd p1 (⟨Y, rfl, nY⟩ : Near (fin Y) (0.2126 * r + 0.7152 * g + 0.0722 * b) 6e-7) 1 5e-6 (by rw [hval]; exact hm.1) (by norm_num) (by norm_num)
  rw [hval] at p2
  obtain ⟨z', ez, nz⟩ := p2.clamp01 hm.2.1 hm.2.2
  rw [ez, fin.injEq] at e3
  rw [← e3]
  exact nz

/-- A value less than half a step off becomes the byte again. -/
theorem back_fine {n : ℕ} (hn : n ≤ 255) {x : ℝ} (hx : |x - n / 255| ≤ 1.955e-3) : Fl.round (fin x * 255) = fin n := by
  replace hx : |x - n / 255| ≤ 391 / 200000 := hx.trans (by norm_num)
  have hn0 : (0 : ℝ) ≤ n := Nat.cast_nonneg n
  have hn1 : (n : ℝ) ≤ 255 := by exact_mod_cast hn
  rw [abs_le] at hx
  have hx' : |x * 255 - n| ≤ 2493 / 5000 := by rw [abs_le]; constructor <;> linarith
  obtain ⟨y, hy, he⟩ := near (x * 255) (by rw [abs_le] at hx' ⊢; constructor <;> linarith)
  have hb : |x * 255| ≤ 256 := by rw [abs_le] at hx' ⊢; constructor <;> linarith
  have : |y - n| < 1 / 2 := by
    rw [abs_le] at hx'
    have he' : |y - x * 255| ≤ 257 / 1000000 := he.trans (by linarith)
    rw [abs_le] at he'
    rw [abs_lt]; constructor <;> linarith
  simp only [lit_def]
  rw [fin_mul, hy, round_fin, roundR_near this]
  simp

/-- A value more than half a step too high becomes another byte. -/
theorem lifted_fine {B : ℕ} (hB : B + 1 ≤ 255) {z : ℝ} (h0 : (B : ℝ) / 255 + 1.97e-3 ≤ z) (h1 : z ≤ 2) :
    Color.clamp (Fl.round (fin z * 255)) 255 0 ≠ fin B := by
  have hB0 : (0 : ℝ) ≤ B := Nat.cast_nonneg B
  have hB1 : (B : ℝ) + 1 ≤ 255 := by exact_mod_cast hB
  have z0 : 0 ≤ z := by norm_num at *; linarith
  obtain ⟨y, hy, ny⟩ := near_rnd (r := z * 255) (by rw [abs_of_nonneg (by linarith)]; linarith)
  rw [abs_of_nonneg (a := z * 255) (by linarith)] at ny
  have ny' := abs_le.mp ny
  have hy' : (B : ℝ) + 1 / 2 ≤ y := by norm_num at *; linarith
  simp only [lit_def, zero_def]
  rw [fin_mul, hy, round_fin, Color.clamp_fin]
  intro h
  rw [fin_inj] at h
  have hr : (B : ℝ) + 1 ≤ roundR y := by
    unfold roundR
    rw [if_pos (by linarith)]
    have : ((B + 1 : ℕ) : ℤ) ≤ ⌊y + 1 / 2⌋ := by rw [Int.le_floor]; push_cast; linarith
    exact_mod_cast this
  have := le_max_left (min (roundR y : ℝ) 255) 0
  have : min ((B : ℝ) + 1) 255 ≤ min (roundR y : ℝ) 255 := min_le_min_right _ hr
  rw [min_eq_left hB1] at this
  linarith

/-- How far the blue is off. -/
theorem byte_offset_hcy {R G B : ℕ} {r g b z : ℝ} (hr : |r - R / 255| ≤ 1.3e-7) (hg : |g - G / 255| ≤ 1.3e-7) (hb : |b - B / 255| ≤ 1.3e-7) (hGB : G < B)
    (hz : |z - (b + 0.9278 * (g + (r - g) / 60 - b))| ≤ 5e-6) (lo : G + 60 * (B - G) + 21 ≤ R) :
    (R ≤ G + 60 * (B - G) + 32 → |z - B / 255| ≤ 1.955e-3) ∧ (G + 60 * (B - G) + 33 ≤ R → (B : ℝ) / 255 + 1.97e-3 ≤ z) := by
  obtain ⟨k, rfl⟩ := Nat.exists_eq_add_of_lt hGB
  have e : G + k + 1 - G = k + 1 := by omega
  rw [e] at lo ⊢
  have lo' : (G : ℝ) + 60 * (k + 1) + 21 ≤ R := by exact_mod_cast lo
  push_cast at hb ⊢
  rw [abs_le] at hr hg hb hz
  constructor
  · intro hi
    have hi' : (R : ℝ) ≤ G + 60 * (k + 1) + 32 := by exact_mod_cast hi
    rw [abs_le]; constructor <;> (norm_num at *; linarith)
  · intro hi
    have hi' : (G : ℝ) + 60 * (k + 1) + 33 ≤ R := by exact_mod_cast hi
    norm_num at *; linarith

end

section
variable [FloatModel] [IntExact] [SmallError]

/-- Back to the 8-bit colour, channel by channel. -/
theorem byte_return (R G B A : ℕ) (hR : R ≤ 255) (hG : G ≤ 255) (hB : B ≤ 255) (hA : A ≤ 255) (sp : Option Nat) (c d : Color)
    (hc : Color.construct .rgbTrue [fin R, fin G, fin B] (fin A) sp = ok c) (hd : Leaf.rgb_true_to_rgb_deep c = ok d) (x y z : ℝ)
    (hx : Fl.round (fin x * 255) = fin R) (hy : Fl.round (fin y * 255) = fin G) (hz : Fl.round (fin z * 255) = fin B) :
    Leaf.rgb_deep_to_rgb_true { d with comps := [fin x, fin y, fin z] } = ok c := by
  obtain ⟨-, d', r, g, b, h1, -, -, hn, hback⟩ := byte_deep R G B A hR hG hB hA sp c hc
  rw [hd, ok_inj] at h1
  subst h1
  have h0 : ∀ n : ℕ, |(n : ℝ) / 255 - n / 255| ≤ 19 / 10000 := fun n => by rw [sub_self, abs_zero]; norm_num
  have := hback _ _ _ (h0 R) (h0 G) (h0 B)
  rw [← this]
  simp only [Leaf.rgb_deep_to_rgb_true, Conv.get3_0, Conv.get3_1, Conv.get3_2, ok_bind, hx, hy, hz, back_to_byte' hR (h0 R), back_to_byte' hG (h0 G), back_to_byte' hB (h0 B)]
  rfl

omit [SmallError] [IntExact] in
/-- Another blue comes back. -/
theorem other_blue (w : World) {R G B A : ℕ} (hB : B ≤ 255) {sp : Option Nat} {c : Color} {t : ColorType}
    (ht1 : t ≠ .undefined) (ht2 : ColorType.rgbTrue ≠ t)
    (hc : Color.construct .rgbTrue [fin R, fin G, fin B] (fin A) sp = ok c) (hcol : IsColor .rgbTrue c) {d e : Color} {x y z : ℝ}
    (h1 : Val.conv .rgbTrue t w c = ok e) (h2 : Val.conv t .rgbTrue w e = Leaf.rgb_deep_to_rgb_true { d with comps := [fin x, fin y, fin z] })
    (hz : Color.clamp (Fl.round (fin z * 255)) 255 0 ≠ fin B) : ¬ Trip w c t .rgbTrue c := by
  obtain ⟨c', hc', h3⟩ : ∃ c', Leaf.rgb_deep_to_rgb_true { d with comps := [fin x, fin y, fin z] } = ok c' ∧ c'.comps[2]? = some (Color.clamp (Fl.round (fin z * 255)) 255 0) := by
    simp only [Leaf.rgb_deep_to_rgb_true, Conv.get3_0, Conv.get3_1, Conv.get3_2, ok_bind, Color.construct_rgbTrue]
    exact ⟨_, rfl, rfl⟩
  intro hT
  have hT' := trip_of (s := .rgbTrue) (by decide) ht1 ht2 hcol h1 (h2.trans hc')
  have := hT.unique hT'
  rw [← this] at h3
  rw [Color.construct_rgbTrue, ok_inj] at hc
  have hBr : (B : ℝ) ≤ 255 := by exact_mod_cast hB
  have hcB : Color.clamp (fin B) 255 0 = fin B := by simp [Color.clamp_fin, hBr]
  rw [← hc] at h3
  simp only [Color.mkRgbTrue, List.getElem?_cons_succ, List.getElem?_cons_zero, Option.some.injEq] at h3
  rw [hcB] at h3
  exact hz h3.symm

end

/-- Red and green move little even where the hue is lost. -/
theorem small_shift {r g b x y : ℝ} (r1 : r ≤ 1) (g0 : 0 ≤ g) (h : HueGap r g b) (hx : |x - y| ≤ 1 / 3000 + 0.0722 * (gapBlue r g b - b)) : |x - y| ≤ 8 / 5000 := by
  rw [gapBlue, if_pos h] at hx
  have := h.1
  norm_num at *; linarith

end HcyFine

open HcyFine

section
variable [FloatModel] [SmallError]

/-! ## C162 -/

/-- **C162** RGB_DEEP → HCY → RGB_DEEP moves no channel by more than 1/3000 in every arithmetic with small errors; except that a slightly bluish red, whose hue is between 359 and 360 degrees,
comes back with a blue close to the one 0.9278 of the way to the blue of 359 degrees, and with red and green not more than 8/5000 away. -/
theorem C162_hcy (w : World) (c : Color) (r g b : ℝ) (h : IsRgb c r g b) : ∃ r' g' b',
    Trip w c .hcy .rgbDeep { c with comps := [fin r', fin g', fin b'] } ∧
      (|r' - r| ≤ 1 / 3000 ∧ |g' - g| ≤ 1 / 3000 ∧ |b' - b| ≤ 1 / 3000 ∨
        HueGap r g b ∧ |r' - r| ≤ 8 / 5000 ∧ |g' - g| ≤ 8 / 5000 ∧ |b' - (b + 0.9278 * (g + (r - g) / 60 - b))| ≤ 1 / 3000) := by
  obtain ⟨d, r', g', b', h1, h2, h3⟩ := hcy_near h
  refine ⟨r', g', b', trip_of (s := .rgbDeep) (by decide) (by decide) (by decide) h.col h1 h2, h3.imp (fun h => ⟨h.1, h.2.1, h.2.2.1⟩) ?_⟩
  rintro ⟨hg, a1, a2, a3⟩
  refine ⟨hg, small_shift h.r1 h.g0 hg a1, small_shift h.r1 h.g0 hg a2, ?_⟩
  rwa [gapBlue, if_pos hg] at a3

/-- Cases: orange, and a slightly bluish red. -/
example (w : World) : ∃ r' g' b', Trip w (rgbOf 0.9 0.5 0.1 1 none) .hcy .rgbDeep { rgbOf 0.9 0.5 0.1 1 none with comps := [fin r', fin g', fin b'] } ∧
    |r' - 0.9| ≤ 1 / 3000 ∧ |g' - 0.5| ≤ 1 / 3000 ∧ |b' - 0.1| ≤ 1 / 3000 := by
  obtain ⟨r', g', b', h, h1 | h1⟩ := C162_hcy w (rgbOf 0.9 0.5 0.1 1 none) 0.9 0.5 0.1 (isRgb_rgbOf _ _ (by norm_num))
  · exact ⟨r', g', b', h, h1⟩
  · exact absurd h1.1.1 (by norm_num)
example : HueGap 1 0 0.01 := by constructor <;> norm_num

end

section
variable [FloatModel] [IntExact] [FineError]

/-- **C162** An 8-bit colour survives the trip through HCY exactly in every arithmetic with the precision of `float`, unless it is a slightly bluish red whose red is more than 32 steps above the one
where the hue is 359 degrees; and those do not survive. -/
theorem C162_bytes (w : World) (R G B A : ℕ) (hR : R ≤ 255) (hG : G ≤ 255) (hB : B ≤ 255) (hA : A ≤ 255) (sp : Option Nat) (c : Color)
    (hc : Color.construct .rgbTrue [fin R, fin G, fin B] (fin A) sp = ok c) : Trip w c .hcy .rgbTrue c ↔ (G < B → R ≤ G + 60 * (B - G) + 32) := by
  obtain ⟨hcol, d, r, g, b, h1, hd, ⟨er, eg, eb⟩, hn, -⟩ := byte_deep R G B A hR hG hB hA sp c hc
  obtain ⟨e, r', g', b', h2, h3, h4⟩ := hcy_near hd
  have nr := byte_fine hR er
  have ng := byte_fine hG eg
  have nb := byte_fine hB eb
  have there : Val.conv .rgbTrue .hcy w c = ok e := by
    show (Leaf.rgb_true_to_rgb_deep c >>= Leaf.rgb_deep_to_hcy) = ok e
    rw [h1, ok_bind, h2]
  have back : Val.conv .hcy .rgbTrue w e = Leaf.rgb_deep_to_rgb_true { d with comps := [fin r', fin g', fin b'] } := by
    show (Leaf.hcy_to_rgb_deep e >>= Leaf.rgb_deep_to_rgb_true) = _
    rw [h3, ok_bind]
  have tri : ∀ x y : ℝ, ∀ n : ℕ, n ≤ 255 → |x - y| ≤ 8 / 5000 → |y - n / 255| ≤ 1 / 100000 → Fl.round (fin x * 255) = fin n := by
    intro x y n hn h h'
    have := abs_sub_le x y (n / 255)
    exact back_to_byte' hn (by linarith)
  have hred : Fl.round (fin r' * 255) = fin R := by
    refine tri _ r _ hR ?_ hn.1
    rcases h4 with h | h
    · exact h.1.trans (by norm_num)
    · exact small_shift hd.r1 hd.g0 h.1 h.2.1
  have hgreen : Fl.round (fin g' * 255) = fin G := by
    refine tri _ g _ hG ?_ hn.2.1
    rcases h4 with h | h
    · exact h.2.1.trans (by norm_num)
    · exact small_shift hd.r1 hd.g0 h.1 h.2.2.1
  have hb2 : b' ≤ 2 := by
    have := gapBlue_range (b := b) hd.r1 hd.g0 hd.b0 hd.b1
    have := hd.b1
    rcases h4 with h | h
    · have := abs_le.mp h.2.2.1; linarith
    · have := abs_le.mp h.2.2.2; norm_num at *; linarith
  have win : ∀ hGB : G < B, G + 60 * (B - G) + 21 ≤ R → R ≤ G + 60 * (B - G) + 39 →
      (R ≤ G + 60 * (B - G) + 32 → |b' - B / 255| ≤ 1.955e-3) ∧ (G + 60 * (B - G) + 33 ≤ R → (B : ℝ) / 255 + 1.97e-3 ≤ b') := fun hGB lo hi =>
    byte_offset_hcy nr ng nb hGB (hcy_window hd (byte_window hR hGB lo hi hd.g0 hd.r1 nr ng nb) h2 h3) lo
  constructor
  · intro hT hGB
    by_contra hgap
    refine other_blue w hB (by decide) (by decide) hc hcol there back (lifted_fine (by omega) ?_ hb2) hT
    by_cases h40 : G + 60 * (B - G) + 40 ≤ R
    · have h2' : (G : ℝ) + 60 * (B - G) + 40 ≤ R := by
        have : G + 60 * B + 40 ≤ R + 60 * G := by omega
        have : ((G + 60 * B + 40 : ℕ) : ℝ) ≤ ((R + 60 * G : ℕ) : ℝ) := by exact_mod_cast this
        push_cast at this; linarith
      have h1' : (G : ℝ) + 1 ≤ B := by exact_mod_cast hGB
      rw [abs_le] at nr ng nb
      have hg' : HueGap r g b := ⟨by norm_num at *; linarith, by norm_num at *; linarith⟩
      rcases h4 with h | h
      · have := h.2.2.2 hg'; norm_num at *; linarith
      · have h5 := h.2.2.2
        rw [gapBlue, if_pos hg', abs_le] at h5
        norm_num at *; linarith
    · exact (win hGB (by omega) (by omega)).2 (by omega)
  · intro hok
    refine trip_of (s := .rgbTrue) (by decide) (by decide) (by decide) hcol there (back.trans (byte_return R G B A hR hG hB hA sp c d hc h1 _ _ _ hred hgreen (back_fine hB ?_)))
    by_cases h20 : G < B → R ≤ G + 60 * (B - G) + 20
    · have hgb : B ≤ G → b ≤ g := fun h => byte_mono h eb eg
      rw [abs_le] at nr ng nb
      rcases h4 with h | h
      · have := abs_le.mp h.2.2.1
        rw [abs_le]; constructor <;> (norm_num at *; linarith)
      · have hGB : G < B := by
          by_contra hGB
          exact absurd h.1.1 (not_lt.mpr (hgb (not_lt.mp hGB)))
        have h2' : (R : ℝ) ≤ G + 60 * (B - G) + 20 := by
          have := h20 hGB
          have : R + 60 * G ≤ G + 60 * B + 20 := by omega
          have : ((R + 60 * G : ℕ) : ℝ) ≤ ((G + 60 * B + 20 : ℕ) : ℝ) := by exact_mod_cast this
          push_cast at this; linarith
        have h3 := h.1.2
        have h5 := h.2.2.2
        rw [gapBlue, if_pos h.1, abs_le] at h5
        rw [abs_le]; constructor <;> (norm_num at *; linarith)
    · push Not at h20
      have := hok h20.1
      exact (win h20.1 h20.2 (by omega)).1 this

/-- Cases: `(102, 10, 11)` comes back, `(103, 10, 11)` does not. -/
example (w : World) : letI := Binary32.binary32
    Trip w (Color.mkRgbTrue (fin (102 : ℕ)) (fin (10 : ℕ)) (fin (11 : ℕ)) (fin (255 : ℕ)) none) .hcy .rgbTrue
      (Color.mkRgbTrue (fin (102 : ℕ)) (fin (10 : ℕ)) (fin (11 : ℕ)) (fin (255 : ℕ)) none) :=
  letI := Binary32.binary32
  letI := Binary32.binary32_int
  letI := Binary32.binary32_fine
  (C162_bytes w 102 10 11 255 (by norm_num) (by norm_num) (by norm_num) (by norm_num) none _ (Color.construct_rgbTrue _ _ _ _ _)).mpr (by norm_num)
example (w : World) : letI := Binary32.binary32
    ¬ Trip w (Color.mkRgbTrue (fin (103 : ℕ)) (fin (10 : ℕ)) (fin (11 : ℕ)) (fin (255 : ℕ)) none) .hcy .rgbTrue
      (Color.mkRgbTrue (fin (103 : ℕ)) (fin (10 : ℕ)) (fin (11 : ℕ)) (fin (255 : ℕ)) none) :=
  letI := Binary32.binary32
  letI := Binary32.binary32_int
  letI := Binary32.binary32_fine
  fun h => absurd ((C162_bytes w 103 10 11 255 (by norm_num) (by norm_num) (by norm_num) (by norm_num) none _ (Color.construct_rgbTrue _ _ _ _ _)).mp h) (by norm_num)

end
