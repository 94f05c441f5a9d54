import Verif.HueNear

/-!
# HCY with rounding errors

Helper lemmas: how far the channels computed from an HCY colour are from the channels of its hue, chroma and luma.
-/

open Outcome Fl Prog ObjectSpec ConvSpec

namespace Hue

/-- Limiting to the unit interval, as `clamp_float` does. -/
noncomputable def ramp (v : ℝ) : ℝ := min (max v 0) 1

theorem ramp_lip (x y : ℝ) : |ramp x - ramp y| ≤ |x - y| := by
  unfold ramp
  refine (abs_min_sub_min_le_max _ _ _ _).trans (max_le ?_ (by simp))
  exact (abs_max_sub_max_le_max _ _ _ _).trans (max_le le_rfl (by simp))

theorem ramp_range (x : ℝ) : 0 ≤ ramp x ∧ ramp x ≤ 1 := ⟨le_min (le_max_right _ _) (by norm_num), min_le_right _ _⟩

/-- The weights of the channels at a hue. -/
noncomputable def wr (h : ℝ) : ℝ := ramp (|h / 60 - 3| - 1)
noncomputable def wg (h : ℝ) : ℝ := ramp (2 - |h / 60 - 2|)
noncomputable def wb (h : ℝ) : ℝ := ramp (2 - |h / 60 - 4|)
/-- The luma of a hue. -/
noncomputable def wy (h : ℝ) : ℝ := wr h * 0.2126 + wg h * 0.7152 + wb h * 0.0722

theorem sixth_lip (x y a : ℝ) : |(|x / 60 - a| - |y / 60 - a|)| ≤ |x - y| / 60 := by
  refine (abs_abs_sub_abs_le _ _).trans ?_
  rw [show x / 60 - a - (y / 60 - a) = (x - y) / 60 by ring, abs_div, abs_of_pos (by norm_num : (0 : ℝ) < 60)]

theorem wr_lip (x y : ℝ) : |wr x - wr y| ≤ |x - y| / 60 := by
  refine (ramp_lip _ _).trans ?_
  rw [show |x / 60 - 3| - 1 - (|y / 60 - 3| - 1) = |x / 60 - 3| - |y / 60 - 3| by ring]
  exact sixth_lip _ _ _

theorem wg_lip (x y : ℝ) : |wg x - wg y| ≤ |x - y| / 60 := by
  refine (ramp_lip _ _).trans ?_
  rw [show 2 - |x / 60 - 2| - (2 - |y / 60 - 2|) = -(|x / 60 - 2| - |y / 60 - 2|) by ring, abs_neg]
  exact sixth_lip _ _ _

theorem wb_lip (x y : ℝ) : |wb x - wb y| ≤ |x - y| / 60 := by
  refine (ramp_lip _ _).trans ?_
  rw [show 2 - |x / 60 - 4| - (2 - |y / 60 - 4|) = -(|x / 60 - 4| - |y / 60 - 4|) by ring, abs_neg]
  exact sixth_lip _ _ _

/-- The weights at the exact position of a hue; for a slightly negative position blue is missing. -/
theorem hweights_at {k : Sector} {u x : ℝ} (u0 : 0 ≤ u) (u1 : u ≤ 1) (h : Stands k u x) :
    wr x = k.red u ∧ wg x = k.green u ∧ |wb x - k.blue u| ≤ max (-x / 60) 0 := by
  have e : ∀ x : ℝ, 60 * x / 60 = x := fun x => by ring
  rcases h with rfl | ⟨rfl, rfl⟩
  · suffices hs : wr (k.hue u) = k.red u ∧ wg (k.hue u) = k.green u ∧ wb (k.hue u) = k.blue u by
      refine ⟨hs.1, hs.2.1, ?_⟩
      rw [hs.2.2, sub_self, abs_zero]; exact le_max_right _ _
    unfold wr wg wb ramp
    cases k <;> simp only [Sector.hue, Sector.red, Sector.green, Sector.blue, e] <;> refine ⟨?_, ?_, ?_⟩ <;>
      simp only [max_def, min_def, abs_eq_max_neg] <;> split_ifs <;> linarith
  · have e2 : (Sector.F.hue u - 360) / 60 = -u := by simp only [Sector.hue]; ring
    have e3 : -(Sector.F.hue u - 360) / 60 = u := by simp only [Sector.hue]; ring
    unfold wr wg wb ramp
    rw [e2, e3]
    simp only [Sector.red, Sector.green, Sector.blue]
    have h1 : |-u - 3| = u + 3 := by rw [abs_of_nonpos (by linarith)]; ring
    have h2 : |-u - 2| = u + 2 := by rw [abs_of_nonpos (by linarith)]; ring
    have h3 : |-u - 4| = u + 4 := by rw [abs_of_nonpos (by linarith)]; ring
    rw [h1, h2, h3]
    refine ⟨?_, ?_, ?_⟩
    · rw [max_eq_left (by linarith), min_eq_right (by linarith)]
    · rw [max_eq_right (by linarith), min_eq_left (by norm_num)]
    · rw [max_eq_right (by linarith), min_eq_left (by norm_num), zero_sub, abs_neg, abs_of_nonneg u0, max_eq_left u0]

/-- The weights at a stored hue `H` close to the position `x`. -/
theorem hweights_near {k : Sector} {u x H : ℝ} (u0 : 0 ≤ u) (u1 : u ≤ 1) (h : Stands k u x) (H0 : 0 ≤ H) :
    |wr H - k.red u| ≤ |H - x| / 30 ∧ |wg H - k.green u| ≤ |H - x| / 30 ∧ |wb H - k.blue u| ≤ |H - x| / 30 := by
  obtain ⟨h1, h2, h3⟩ := hweights_at u0 u1 h
  have a := abs_nonneg (H - x)
  refine ⟨?_, ?_, ?_⟩
  · rw [← h1]; exact (wr_lip _ _).trans (by linarith)
  · rw [← h2]; exact (wg_lip _ _).trans (by linarith)
  · have h4 : max (-x / 60) 0 ≤ |H - x| / 60 := max_le (by have := le_abs_self (H - x); linarith) (by linarith)
    have := abs_sub_le (wb H) (wb x) (k.blue u)
    have := wb_lip H x
    linarith

variable [FloatModel] [SmallError]

omit [FloatModel] [SmallError] in
theorem near_ramp {v : Fl} {a ε : ℝ} (h : Near v a ε) : Near (Leaf.clampFloat v 0 1) (ramp a) ε := by
  have h0 := h.nonneg
  have : Near (Fl.fmin (Fl.fmax v (fin 0)) (fin 1)) (min (max a 0) 1) ε := (h.fmax ((near_fin 0).weaken h0)).fmin ((near_fin 1).weaken h0)
  simpa only [Leaf.clampFloat, zero_def, one_def, ramp] using this

/-- The three weights as the code computes them. -/
theorem weights_near {H : ℝ} (H0 : 0 ≤ H) (H1 : H ≤ 359) :
    Near (Leaf.clampFloat (Fl.abs (fin H / 360 * 6 - 3) - 1) 0 1) (wr H) 3e-5 ∧
    Near (Leaf.clampFloat (2 - Fl.abs (fin H / 360 * 6 - 2)) 0 1) (wg H) 3e-5 ∧
    Near (Leaf.clampFloat (2 - Fl.abs (fin H / 360 * 6 - 4)) 0 1) (wb H) 3e-5 := by
  have q0 : 0 ≤ H / 360 := by positivity
  have q1 : H / 360 ≤ 1 := by linarith
  have e1 : Near (fin H / fin 360) (H / 360) 2e-6 := by
    rw [fin_div _ _ (by norm_num)]
    refine (near_rnd (by rw [abs_of_nonneg q0]; linarith)).weaken ?_
    rw [abs_of_nonneg q0]; norm_num; linarith
  have e2 : Near (fin H / fin 360 * fin 6) (H / 60) 1.92e-5 := by
    have := (e1.mul (near_fin 6) 1 6 (by rw [abs_of_nonneg q0]; exact q1) (by norm_num) (by norm_num)).weaken (δ := 1.92e-5) (by norm_num)
    rwa [show H / 360 * 6 = H / 60 by ring] at this
  have h0 : 0 ≤ H / 60 := by positivity
  have h6 : H / 60 ≤ 6 := by linarith
  have e3 : Near (Fl.abs (fin H / fin 360 * fin 6 - fin 3)) |H / 60 - 3| 2.4e-5 :=
    ((e2.sub (near_fin 3) 3 (by rw [abs_le]; constructor <;> linarith) (by norm_num)).weaken (by norm_num)).abs
  have e4 : Near (Fl.abs (fin H / fin 360 * fin 6 - fin 2)) |H / 60 - 2| 2.5e-5 :=
    ((e2.sub (near_fin 2) 4 (by rw [abs_le]; constructor <;> linarith) (by norm_num)).weaken (by norm_num)).abs
  have e5 : Near (Fl.abs (fin H / fin 360 * fin 6 - fin 4)) |H / 60 - 4| 2.5e-5 :=
    ((e2.sub (near_fin 4) 4 (by rw [abs_le]; constructor <;> linarith) (by norm_num)).weaken (by norm_num)).abs
  have b3 : |H / 60 - 3| ≤ 3 := by rw [abs_le]; constructor <;> linarith
  have b2 : |H / 60 - 2| ≤ 4 := by rw [abs_le]; constructor <;> linarith
  have b4 : |H / 60 - 4| ≤ 4 := by rw [abs_le]; constructor <;> linarith
  have a3 := abs_nonneg (H / 60 - 3)
  have a2 := abs_nonneg (H / 60 - 2)
  have a4 := abs_nonneg (H / 60 - 4)
  have f3 := (e3.sub (near_fin 1) 2 (by rw [abs_le]; constructor <;> linarith) (by norm_num)).weaken (δ := 3e-5) (by norm_num)
  have f2 := ((near_fin 2).sub e4 2 (by rw [abs_le]; constructor <;> linarith) (by norm_num)).weaken (δ := 3e-5) (by norm_num)
  have f4 := ((near_fin 2).sub e5 2 (by rw [abs_le]; constructor <;> linarith) (by norm_num)).weaken (δ := 3e-5) (by norm_num)
  have g3 := near_ramp f3
  have g2 := near_ramp f2
  have g4 := near_ramp f4
  simp only [lit_def, zero_def, one_def] at *
  exact ⟨g3, g2, g4⟩

theorem lit_near {v : ℝ} (v0 : 0 ≤ v) (v1 : v ≤ 1) : Near (lit v) v (v / 1000000 + 1e-6) := by
  refine (near_rnd (by rw [abs_of_nonneg v0]; linarith)).weaken ?_
  rw [abs_of_nonneg v0]; norm_num

/-- The luma of three numbers in the unit interval. -/
theorem luma_near {x y z : Fl} {a b c ε : ℝ} (hx : Near x a ε) (hy : Near y b ε) (hz : Near z c ε) (a0 : 0 ≤ a) (a1 : a ≤ 1) (b0 : 0 ≤ b) (b1 : b ≤ 1) (c0 : 0 ≤ c) (c1 : c ≤ 1)
    (hε : ε ≤ 3e-5) : Near (x * lit 0.2126 + y * lit 0.7152 + z * lit 0.0722) (a * 0.2126 + b * 0.7152 + c * 0.0722) (ε + 1.3e-5) ∧
      Near (lit 0.2126 * x + lit 0.7152 * y + lit 0.0722 * z) (a * 0.2126 + b * 0.7152 + c * 0.0722) (ε + 1.3e-5) := by
  have ε0 := hx.nonneg
  have key : ∀ (v : Fl) (s m : ℝ), Near v s ε → 0 ≤ s → s ≤ 1 → 0 ≤ m → m ≤ 1 → Near (v * lit m) (s * m) (m * ε + 2.1e-6 * m + 2.1e-6) := by
    intro v s m hv s0 s1 m0 m1
    have hmm : m * ε ≤ 3e-5 := by
      calc m * ε ≤ 1 * ε := by gcongr
        _ ≤ _ := by linarith
    have hpp : ε * (m / 1000000 + 1e-6) ≤ 3e-5 * (1 / 1000000 + 1e-6) := by gcongr
    refine (hv.mul (lit_near m0 m1) 1 m (by rw [abs_of_nonneg s0]; exact s1) (by rw [abs_of_nonneg m0]) ?_).weaken ?_
    · norm_num at *; linarith
    · norm_num at *; linarith
  have comm := Fl.mul_comm'
  have h1 := key x a 0.2126 hx a0 a1 (by norm_num) (by norm_num)
  have h2 := key y b 0.7152 hy b0 b1 (by norm_num) (by norm_num)
  have h3 := key z c 0.0722 hz c0 c1 (by norm_num) (by norm_num)
  have s1 := h1.add h2 1 (by rw [abs_of_nonneg (by positivity)]; norm_num at *; linarith) (by norm_num at *; linarith)
  have s2 := (s1.add h3 1 (by rw [abs_of_nonneg (by positivity)]; norm_num at *; linarith) (by norm_num at *; linarith)).weaken (δ := ε + 1.3e-5) (by norm_num at *; linarith)
  refine ⟨s2, ?_⟩
  rw [comm (lit 0.2126) x, comm (lit 0.7152) y, comm (lit 0.0722) z]
  exact s2

theorem wy_range (H : ℝ) : 0 ≤ wy H ∧ wy H ≤ 1 := by
  have h1 := ramp_range (|H / 60 - 3| - 1)
  have h2 := ramp_range (2 - |H / 60 - 2|)
  have h3 := ramp_range (2 - |H / 60 - 4|)
  unfold wy wr wg wb
  constructor <;> (norm_num; linarith)

/-- One channel from the weights of the hue. -/
theorem hcy_channel {x Y : Fl} {a m C y : ℝ} (hx : Near x a 3e-5) (hY : Near Y m 4.3e-5) (a0 : 0 ≤ a) (a1 : a ≤ 1) (m0 : 0 ≤ m) (m1 : m ≤ 1)
    (C0 : 0 ≤ C) (C1 : C ≤ 1) (y0 : 0 ≤ y) (y1 : y ≤ 1) : Near ((x - Y) * fin C + fin y) ((a - m) * C + y) 1e-4 := by
  have b1 : |a - m| ≤ 1 := by rw [abs_le]; constructor <;> linarith
  have b2 : |(a - m) * C| ≤ 1 := by
    rw [abs_mul, abs_of_nonneg C0]
    exact (mul_le_mul b1 C1 C0 (by norm_num)).trans (by norm_num)
  have h1 := (hx.sub hY 1 b1 (by norm_num)).weaken (δ := 7.6e-5) (by norm_num)
  have h2 := (h1.mul (near_fin C) 1 1 b1 (by rw [abs_of_nonneg C0]; exact C1) (by norm_num)).weaken (δ := 8e-5) (by norm_num)
  have b3 : |(a - m) * C + y| ≤ 2 := by
    have := abs_le.mp b2
    rw [abs_le]; constructor <;> linarith
  exact (h2.add (near_fin y) 2 b3 (by norm_num)).weaken (by norm_num)

/-- The three channels that the code computes from hue, chroma and luma. -/
theorem hcy_value {H C y : ℝ} (H0 : 0 ≤ H) (H1 : H ≤ 359) (C0 : 0 ≤ C) (C1 : C ≤ 1) (y0 : 0 ≤ y) (y1 : y ≤ 1) (al : Fl) (sp : Option Nat) :
    ∃ x1 x2 x3, Leaf.hcy_to_rgb_deep (obj .hcy H C y al sp) = ok (Color.mkRgbDeep x1 x2 x3 al sp) ∧
      Near x1 ((wr H - wy H) * C + y) 1e-4 ∧ Near x2 ((wg H - wy H) * C + y) 1e-4 ∧ Near x3 ((wb H - wy H) * C + y) 1e-4 := by
  obtain ⟨n1, n2, n3⟩ := weights_near H0 H1
  have r1 := ramp_range (|H / 60 - 3| - 1)
  have r2 := ramp_range (2 - |H / 60 - 2|)
  have r3 := ramp_range (2 - |H / 60 - 4|)
  have hy := ((luma_near n1 n2 n3 r1.1 r1.2 r2.1 r2.2 r3.1 r3.2 (by norm_num)).1).weaken (δ := 4.3e-5) (by norm_num)
  have hr := wy_range H
  simp only [Leaf.hcy_to_rgb_deep, obj_0, obj_1, obj_2, obj_space, obj_malpha, obj_alpha _ _ _ _ _ _ (rfl : Color.scalesAlpha .hcy = false), ok_bind, Color.construct_rgbDeep]
  exact ⟨_, _, _, rfl, hcy_channel n1 hy r1.1 r1.2 hr.1 hr.2 C0 C1 y0 y1, hcy_channel n2 hy r2.1 r2.2 hr.1 hr.2 C0 C1 y0 y1, hcy_channel n3 hy r3.1 r3.2 hr.1 hr.2 C0 C1 y0 y1⟩

set_option maxHeartbeats 1600000 in
/-- HCY there and back with rounding errors.  When the hue is limited to 359 degrees all three channels move: blue is lifted, and the luma stays. -/
theorem hcy_near {c : Color} {r g b : ℝ} (h : IsRgb c r g b) : ∃ d r' g' b', Leaf.rgb_deep_to_hcy c = ok d ∧
    Leaf.hcy_to_rgb_deep d = ok { c with comps := [fin r', fin g', fin b'] } ∧
      (|r' - r| ≤ 1 / 3000 ∧ |g' - g| ≤ 1 / 3000 ∧ |b' - b| ≤ 1 / 3000 ∧ (HueGap r g b → b - g ≤ 1 / 10000) ∨
        HueGap r g b ∧ |r' - r| ≤ 1 / 3000 + 0.0722 * (gapBlue r g b - b) ∧ |g' - g| ≤ 1 / 3000 + 0.0722 * (gapBlue r g b - b) ∧
          |b' - (b + 0.9278 * (gapBlue r g b - b))| ≤ 1 / 3000) := by
  obtain ⟨-, -, r0, r1, g0, g1, b0, b1⟩ := id h
  suffices hs : ∃ d r' g' b', Leaf.rgb_deep_to_hcy c = ok d ∧ Leaf.hcy_to_rgb_deep d = ok (obj .rgbDeep r' g' b' c.malpha c.space) ∧
      (|r' - r| ≤ 1 / 3000 ∧ |g' - g| ≤ 1 / 3000 ∧ |b' - b| ≤ 1 / 3000 ∧ (HueGap r g b → b - g ≤ 1 / 10000) ∨
        HueGap r g b ∧ |r' - r| ≤ 1 / 3000 + 0.0722 * (gapBlue r g b - b) ∧ |g' - g| ≤ 1 / 3000 + 0.0722 * (gapBlue r g b - b) ∧
          |b' - (b + 0.9278 * (gapBlue r g b - b))| ≤ 1 / 3000) by
    obtain ⟨d, r', g', b', e1, e2, e3⟩ := hs
    rw [obj_rgb h] at e2
    exact ⟨d, r', g', b', e1, e2, e3⟩
  rw [rgb_eq h]
  generalize c.malpha = al
  generalize c.space = sp
  simp only [Leaf.rgb_deep_to_hcy, obj_0, obj_1, obj_2, obj_space, obj_malpha, obj_alpha _ _ _ _ _ _ (rfl : Color.scalesAlpha .rgbDeep = false), ok_bind, fmin_fin, fmax_fin, feq_fin, Color.construct_hcy]
  have fin3 : ∀ x1 x2 x3 : Fl, ∀ r' g' b' : ℝ, Color.clamp x1 1 0 = fin r' → Color.clamp x2 1 0 = fin g' → Color.clamp x3 1 0 = fin b' →
      Color.mkRgbDeep x1 x2 x3 al sp = obj .rgbDeep r' g' b' al sp := by
    intro x1 x2 x3 r' g' b' e1 e2 e3
    simp only [Color.mkRgbDeep, e1, e2, e3, obj, Color.maxOf, Color.minOf]
  by_cases hne : max (max r g) b = min (min r g) b
  · rw [if_pos hne]
    obtain ⟨rfl, rfl⟩ := grey_of hne
    rw [min_self, min_self, mkHue_grey _ _ _ ⟨rfl, rfl⟩ b0 b1]
    obtain ⟨x1, x2, x3, e, n1, n2, n3⟩ := hcy_value (H := 0) (C := 0) (y := b) le_rfl (by norm_num) le_rfl (by norm_num) b0 b1 al sp
    rw [mul_zero, zero_add] at n1 n2 n3
    obtain ⟨r', e1, m1⟩ := n1.clamp01 b0 b1
    obtain ⟨g', e2, m2⟩ := n2.clamp01 b0 b1
    obtain ⟨b', e3, m3⟩ := n3.clamp01 b0 b1
    refine ⟨_, r', g', b', rfl, by rw [e, fin3 _ _ _ _ _ _ e1 e2 e3], .inl ⟨?_, ?_, ?_, fun hg => absurd hg.1 (lt_irrefl _)⟩⟩ <;> (norm_num at *; linarith)
  · rw [if_neg hne]
    generalize hmx : max (max r g) b = mx at *
    generalize hmn : min (min r g) b = mn at *
    have hr1 : mn ≤ r := by rw [← hmn]; exact (min_le_left _ _).trans (min_le_left _ _)
    have hg1 : mn ≤ g := by rw [← hmn]; exact (min_le_left _ _).trans (min_le_right _ _)
    have hb1 : mn ≤ b := by rw [← hmn]; exact min_le_right _ _
    have hr2 : r ≤ mx := by rw [← hmx]; exact (le_max_left _ _).trans (le_max_left _ _)
    have hg2 : g ≤ mx := by rw [← hmx]; exact (le_max_right _ _).trans (le_max_left _ _)
    have hb2 : b ≤ mx := by rw [← hmx]; exact le_max_right _ _
    have hmn0 : 0 ≤ mn := by rw [← hmn]; exact le_min (le_min r0 g0) b0
    have hmx1 : mx ≤ 1 := by rw [← hmx]; exact max_le (max_le r1 g1) b1
    have hlt : mn < mx := lt_of_le_of_ne (hr1.trans hr2) (Ne.symm hne)
    have hδ0 : 0 ≤ mx - mn := by linarith
    have hδ1 : mx - mn ≤ 1 := by linarith
    -- chroma and luma
    obtain ⟨C, eC, nC⟩ : Near (Color.clamp (fin mx - fin mn) 1 0) (mx - mn) (2 / 1000000) := by
      obtain ⟨p, ep, np⟩ := diff_near (x := mx) (y := mn) (by rw [abs_of_nonneg hδ0]; exact hδ1)
      exact (Near.clamp01 ⟨p, ep, np⟩ hδ0 hδ1)
    have rngC := Color.clamp_inRange (fin mx - fin mn) (mx := 1) (mn := 0) (by norm_num)
    simp only [one_def, zero_def] at eC
    rw [eC] at rngC
    simp only [inRange_fin] at rngC
    set L : ℝ := r * 0.2126 + g * 0.7152 + b * 0.0722 with hL
    have L0 : 0 ≤ L := by positivity
    have Lmn : mn ≤ L := by rw [hL]; norm_num; linarith
    have Lmx : L ≤ mx := by rw [hL]; norm_num; linarith
    obtain ⟨y, ey, ny⟩ : Near (Color.clamp (lit 0.2126 * fin r + lit 0.7152 * fin g + lit 0.0722 * fin b) 1 0) L 1.3e-5 := by
      have := (luma_near (near_fin r) (near_fin g) (near_fin b) r0 r1 g0 g1 b0 b1 (by norm_num)).2
      rw [zero_add] at this
      exact this.clamp01 L0 (Lmx.trans hmx1)
    have rngy := Color.clamp_inRange (lit 0.2126 * fin r + lit 0.7152 * fin g + lit 0.0722 * fin b) (mx := 1) (mn := 0) (by norm_num)
    simp only [one_def, zero_def] at ey
    rw [ey] at rngy
    simp only [inRange_fin] at rngy
    obtain ⟨H, eH, H0, H1⟩ := Color.clamp_inRange (Color.hueReduce (Leaf.hueFromRgb (fin r) (fin g) (fin b) (fin mx) (fin mx - fin mn))) (mx := 359) (mn := 0) (by norm_num)
    have hmk : Color.mkHue .hcy (Leaf.hueFromRgb (fin r) (fin g) (fin b) (fin mx) (fin mx - fin mn)) (fin mx - fin mn)
        (lit 0.2126 * fin r + lit 0.7152 * fin g + lit 0.0722 * fin b) al sp = obj .hcy H C y al sp := by
      simp only [Color.mkHue, lit_def, one_def, zero_def] at *
      rw [eH, eC, ey]
      simp only [obj, Color.maxOf, Color.minOf, one_def, zero_def]
    obtain ⟨x1, x2, x3, e, n1, n2, n3⟩ := hcy_value H0 H1 rngC.1 rngC.2 rngy.1 rngy.2 al sp
    have wyr := wy_range H
    have w1 := ramp_range (|H / 60 - 3| - 1)
    have w2 := ramp_range (2 - |H / 60 - 2|)
    have w3 := ramp_range (2 - |H / 60 - 4|)
    -- a channel with exact weight `W`
    have step : ∀ (w W WY t : ℝ), 0 ≤ w → w ≤ 1 → |w - W| * (mx - mn) ≤ 1 / 24000 → |wy H - WY| * (mx - mn) ≤ 1 / 24000 → t = (W - WY) * (mx - mn) + L →
        |(w - wy H) * C + y - t| ≤ 1.1e-4 := by
      intro w W WY t w0 w1 hw hwy ht
      have k1 : |(w - wy H) * (C - (mx - mn))| ≤ 1 * (2 / 1000000) := by
        rw [abs_mul]; exact mul_le_mul (by rw [abs_le]; constructor <;> linarith) nC (abs_nonneg _) (by norm_num)
      have k2 : |(w - W) * (mx - mn)| ≤ 1 / 24000 := by rw [abs_mul, abs_of_nonneg hδ0]; exact hw
      have k3 : |(wy H - WY) * (mx - mn)| ≤ 1 / 24000 := by rw [abs_mul, abs_of_nonneg hδ0]; exact hwy
      have e1 : (w - wy H) * C + y - t = (w - wy H) * (C - (mx - mn)) + (w - W) * (mx - mn) - (wy H - WY) * (mx - mn) + (y - L) := by rw [ht]; ring
      rw [e1]
      rw [abs_le] at *
      constructor <;> (norm_num at *; linarith)
    rcases le_or_gt (1 / 10000) (mx - mn) with hδ | hδ
    · obtain ⟨H', x, k, u, b2, eH', -, -, u0, u1, hst, hn, er, eg, eb, hb⟩ := hue_near hmx hmn hmn0 hmx1 hδ
      simp only [lit_def, zero_def] at eH eH'
      rw [eH, fin.injEq] at eH'
      subst eH'
      obtain ⟨q1, q2, q3⟩ := hweights_near u0 u1 hst H0
      have hq : |H - x| / 30 * (mx - mn) ≤ 1 / 24000 := by
        calc |H - x| / 30 * (mx - mn) = |H - x| * (mx - mn) / 30 := by ring
          _ ≤ 1 / 800 / 30 := by gcongr
          _ = _ := by norm_num
      have p1 : |wr H - k.red u| * (mx - mn) ≤ 1 / 24000 := le_trans (by gcongr) hq
      have p2 : |wg H - k.green u| * (mx - mn) ≤ 1 / 24000 := le_trans (by gcongr) hq
      have p3 : |wb H - k.blue u| * (mx - mn) ≤ 1 / 24000 := le_trans (by gcongr) hq
      set WY : ℝ := k.red u * 0.2126 + k.green u * 0.7152 + k.blue u * 0.0722 with hWY
      have p4 : |wy H - WY| * (mx - mn) ≤ 1 / 24000 := by
        refine le_trans (mul_le_mul_of_nonneg_right ?_ hδ0) hq
        rw [hWY]; unfold wy
        rw [abs_le] at q1 q2 q3 ⊢
        constructor <;> (norm_num at *; linarith)
      have hLW : L = mn + WY * (mx - mn) - 0.0722 * (b2 - b) := by
        have : L = r * 0.2126 + g * 0.7152 + b2 * 0.0722 - 0.0722 * (b2 - b) := by rw [hL]; ring
        rw [this, hWY]; nth_rewrite 1 [er]; nth_rewrite 1 [eg]; nth_rewrite 1 [eb]; ring
      have t1 := step (wr H) (k.red u) WY (r - 0.0722 * (b2 - b)) w1.1 w1.2 p1 p4 (by rw [hLW]; nth_rewrite 1 [er]; ring)
      have t2 := step (wg H) (k.green u) WY (g - 0.0722 * (b2 - b)) w2.1 w2.2 p2 p4 (by rw [hLW]; nth_rewrite 1 [eg]; ring)
      have t3 := step (wb H) (k.blue u) WY (b2 - 0.0722 * (b2 - b)) w3.1 w3.2 p3 p4 (by rw [hLW]; nth_rewrite 1 [eb]; ring)
      have move : ∀ (v : Fl) (s t : ℝ), Near v s 1e-4 → |s - t| ≤ 1.1e-4 → Near v t (2.1e-4) := by
        rintro v s t ⟨z, ez, nz⟩ hst
        refine ⟨z, ez, ?_⟩
        have := abs_sub_le z s t
        norm_num at *; linarith
      have v1 := move _ _ _ n1 t1
      have v2 := move _ _ _ n2 t2
      have v3 := move _ _ _ n3 t3
      have shift : ∀ (v : Fl) (s t : ℝ), 0 ≤ t → Near v (s - t) 2.1e-4 → 0 ≤ s → s ≤ 1 → Near (Color.clamp v 1 0) s (1 / 3000 + t) := by
        rintro v s t t0 ⟨z, ez, nz⟩ s0 s1
        refine Near.clamp01 ⟨z, ez, ?_⟩ s0 s1
        rw [abs_le] at *
        constructor <;> (norm_num at *; linarith)
      rcases hb with ⟨rfl, hgb⟩ | ⟨rfl, hgb⟩
      · rw [sub_self, mul_zero] at v1 v2 v3
        obtain ⟨r', e1, m1⟩ := shift _ _ _ le_rfl v1 r0 r1
        obtain ⟨g', e2, m2⟩ := shift _ _ _ le_rfl v2 g0 g1
        obtain ⟨b', e3, m3⟩ := shift _ _ _ le_rfl v3 b0 b1
        rw [add_zero] at m1 m2 m3
        exact ⟨_, r', g', b', rfl, by rw [hmk, e, fin3 _ _ _ _ _ _ e1 e2 e3], .inl ⟨m1, m2, m3, fun hg => (hgb hg).trans (by norm_num)⟩⟩
      · have hβ : b ≤ gapBlue r g b := by
          rw [gapBlue, if_pos hgb]; have := hgb.2; linarith
        have hβ1 := gapBlue_range (b := b) r1 g0 b0 b1
        have e5 : gapBlue r g b - 0.0722 * (gapBlue r g b - b) = b + 0.9278 * (gapBlue r g b - b) := by ring
        rw [e5] at v3
        have t0 : 0 ≤ 0.0722 * (gapBlue r g b - b) := mul_nonneg (by norm_num) (by linarith)
        obtain ⟨r', e1, m1⟩ := shift _ _ _ t0 v1 r0 r1
        obtain ⟨g', e2, m2⟩ := shift _ _ _ t0 v2 g0 g1
        obtain ⟨b', e3, m3⟩ := v3.clamp01 (by norm_num; linarith) (by norm_num; linarith)
        exact ⟨_, r', g', b', rfl, by rw [hmk, e, fin3 _ _ _ _ _ _ e1 e2 e3], .inr ⟨hgb, m1, m2, m3.trans (by norm_num)⟩⟩
    · have nC' := abs_le.mp nC
      have ny' := abs_le.mp ny
      have ch : ∀ (v : Fl) (w t : ℝ), Near v ((w - wy H) * C + y) 1e-4 → 0 ≤ w → w ≤ 1 → mn ≤ t → t ≤ mx → Near (Color.clamp v 1 0) t (1 / 3000) := by
        rintro v w t ⟨z, ez, nz⟩ w0 w1 t0 t1
        refine Near.clamp01 ⟨z, ez, ?_⟩ (hmn0.trans t0) (t1.trans hmx1)
        have k1 : |(w - wy H) * C| ≤ 1 * 1.02e-4 := by
          rw [abs_mul, abs_of_nonneg rngC.1]
          exact mul_le_mul (by rw [abs_le]; constructor <;> linarith) (by norm_num at *; linarith) rngC.1 (by norm_num)
        rw [abs_le] at *
        constructor <;> (norm_num at *; linarith)
      obtain ⟨r', e1, m1⟩ := ch _ _ r n1 w1.1 w1.2 hr1 hr2
      obtain ⟨g', e2, m2⟩ := ch _ _ g n2 w2.1 w2.2 hg1 hg2
      obtain ⟨b', e3, m3⟩ := ch _ _ b n3 w3.1 w3.2 hb1 hb2
      exact ⟨_, r', g', b', rfl, by rw [hmk, e, fin3 _ _ _ _ _ _ e1 e2 e3], .inl ⟨m1, m2, m3, fun _ => by linarith⟩⟩

end Hue
