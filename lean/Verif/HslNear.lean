import Verif.HueNear

/-!
# HSL components and their changes with rounding errors

Helper lemmas for C175: the HSL components of an RGB colour, and the channels after the saturation or the lightness has been multiplied.
-/

open Outcome Fl Prog ObjectSpec ConvSpec

namespace Hue

section
variable [FloatModel] [SmallError]

/-- From HSL to RGB, given the limited channels. -/
theorem hsl_back {H S l : ℝ} (hl : l ≠ 0) {r g b : ℝ} (e1 : Color.clamp (Leaf.hslToRgb (fin H) (fin S) (fin l) (fin 0)) 1 0 = fin r)
    (e2 : Color.clamp (Leaf.hslToRgb (fin H) (fin S) (fin l) (fin 8)) 1 0 = fin g) (e3 : Color.clamp (Leaf.hslToRgb (fin H) (fin S) (fin l) (fin 4)) 1 0 = fin b) (al : Fl) (sp : Option Nat) :
    Leaf.hsl_to_rgb_deep (obj .hsl H S l al sp) = ok (obj .rgbDeep r g b al sp) := by
  simp only [Leaf.hsl_to_rgb_deep, obj_0, obj_1, obj_2, obj_space, obj_malpha, obj_alpha _ _ _ _ _ _ (rfl : Color.scalesAlpha .hsl = false), ok_bind, Color.construct_rgbDeep, Color.mkRgbDeep]
  simp only [lit_def, one_def, zero_def, feq_fin, hl, if_false] at e1 e2 e3 ⊢
  rw [e1, e2, e3]; simp only [obj, Color.maxOf, Color.minOf, one_def, zero_def]

/-- Without lightness the channels and the opacity are 0. -/
theorem hsl_back_zero (H S : ℝ) (al : Fl) (sp : Option Nat) : Leaf.hsl_to_rgb_deep (obj .hsl H S 0 al sp) = ok (obj .rgbDeep 0 0 0 0 sp) := by
  simp only [Leaf.hsl_to_rgb_deep, obj_0, obj_1, obj_2, obj_space, obj_malpha, obj_alpha _ _ _ _ _ _ (rfl : Color.scalesAlpha .hsl = false), ok_bind, Color.construct_rgbDeep, Color.mkRgbDeep]
  simp [obj, Color.maxOf, Color.minOf, Color.constructGrey, Color.construct_rgbDeep, Color.mkRgbDeep, Color.clamp_fin]

/-- Precision of the HSL components of a colour whose largest and smallest channel differ by `δ`. -/
structure Grain (δ a e : ℝ) : Prop where
  a0 : 0 ≤ a
  e0 : 0 ≤ e
  loose : a + e ≤ 3 / 10000
  tight : δ = 0 ∨ 1 / 10000 ≤ δ → a + e ≤ 52 / 1000000

/-- The HSL components of an RGB colour that is not nearly black. -/
theorem hsl_parts [IntExact] {c : Color} {r g b : ℝ} (h : IsRgb c r g b) (hbl : 1 / 1000 ≤ max (max r g) b) :
    ∃ H S l a e β, Leaf.rgb_deep_to_hsl c = ok (obj .hsl H S l c.malpha c.space) ∧ 0 ≤ H ∧ H ≤ 359 ∧ 0 ≤ S ∧ S ≤ 1 ∧ 0 < l ∧ l ≤ 1 ∧
      Grain (max (max r g) b - min (min r g) b) a e ∧ |l - (max (max r g) b + min (min r g) b) / 2| ≤ 5 / 1000000 ∧
      |S * min l (1 - l) - (max (max r g) b - min (min r g) b) / 2| ≤ a ∧
      |(max (max r g) b - min (min r g) b) / 2 * lweight (0 + H / 30) + (r - (max (max r g) b + min (min r g) b) / 2)| ≤ e ∧
      |(max (max r g) b - min (min r g) b) / 2 * lweight (8 + H / 30) + (g - (max (max r g) b + min (min r g) b) / 2)| ≤ e ∧
      |(max (max r g) b - min (min r g) b) / 2 * lweight (4 + H / 30) + (β - (max (max r g) b + min (min r g) b) / 2)| ≤ e ∧
      (β = b ∧ (HueGap r g b → b - g ≤ 1 / 10000) ∨ HueGap r g b ∧ β = gapBlue r g b) := by
  obtain ⟨-, -, r0, r1, g0, g1, b0, b1⟩ := id h
  rw [rgb_eq h]
  generalize c.malpha = al
  generalize c.space = sp
  simp only [Leaf.rgb_deep_to_hsl, obj_0, obj_1, obj_2, obj_space, obj_malpha, obj_alpha _ _ _ _ _ _ (rfl : Color.scalesAlpha .rgbDeep = false), ok_bind, fmin_fin, fmax_fin, feq_fin, Color.construct_hsl]
  by_cases hne : max (max r g) b = min (min r g) b
  · rw [if_pos hne]
    obtain ⟨rfl, rfl⟩ := grey_of hne
    simp only [max_self, min_self] at hbl ⊢
    rw [mkHue_grey _ _ _ ⟨rfl, rfl⟩ b0 b1]
    refine ⟨0, 0, b, 0, 0, b, rfl, le_rfl, by norm_num, le_rfl, zero_le_one, by linarith, b1, ⟨le_rfl, le_rfl, by norm_num, fun _ => by norm_num⟩, ?_, ?_, ?_, ?_, ?_,
      .inl ⟨rfl, fun hg => absurd hg.1 (lt_irrefl _)⟩⟩ <;> simp
    norm_num
  · rw [if_neg hne]
    generalize hmx : max (max r g) b = mx at *
    generalize hmn : min (min r g) b = mn at *
    have hr1 : mn ≤ r := by rw [← hmn]; exact (min_le_left _ _).trans (min_le_left _ _)
    have hg1 : mn ≤ g := by rw [← hmn]; exact (min_le_left _ _).trans (min_le_right _ _)
    have hb1 : mn ≤ b := by rw [← hmn]; exact min_le_right _ _
    have hr2 : r ≤ mx := by rw [← hmx]; exact (le_max_left _ _).trans (le_max_left _ _)
    have hg2 : g ≤ mx := by rw [← hmx]; exact (le_max_right _ _).trans (le_max_left _ _)
    have hb2 : b ≤ mx := by rw [← hmx]; exact le_max_right _ _
    have hmn0 : 0 ≤ mn := by rw [← hmn]; exact le_min (le_min r0 g0) b0
    have hmx1 : mx ≤ 1 := by rw [← hmx]; exact max_le (max_le r1 g1) b1
    have hlt : mn < mx := lt_of_le_of_ne (hr1.trans hr2) (Ne.symm hne)
    obtain ⟨S, l, el, eS, S0, S1, l0, l1, nl, hS, hS'⟩ := lchroma_near hmn0 hmx1 hbl hlt.le
    rw [el]
    have hmk : ∀ H : ℝ, Color.clamp (Color.hueReduce (Leaf.hueFromRgb (fin r) (fin g) (fin b) (fin mx) (fin mx - fin mn))) 359 0 = fin H →
        Color.mkHue .hsl (Leaf.hueFromRgb (fin r) (fin g) (fin b) (fin mx) (fin mx - fin mn))
          (if feq (fin l) 0 ∨ feq (fin l) 1 then 0 else (fin mx - fin mn) / (1 - Fl.abs (2 * fin l - 1))) (fin l) al sp = obj .hsl H S l al sp := by
      intro H hH
      simp only [Color.mkHue, hH, eS, clamp01 l0.le l1, obj, Color.maxOf, Color.minOf]
    rcases le_or_gt (1 / 10000) (mx - mn) with hδ | hδ
    · obtain ⟨H, x, k, u, b2, eH, H0, H1, u0, u1, hst, hn, er, eg, eb, hb⟩ := hue_near hmx hmn hmn0 hmx1 hδ
      obtain ⟨w1, w2, w3⟩ := lweights_at u0 u1 hst
      have ch : ∀ n y w : ℝ, lweight (n + x / 30) = 1 - 2 * w → y = mn + (mx - mn) * w → |(mx - mn) / 2 * lweight (n + H / 30) + (y - (mx + mn) / 2)| ≤ 42 / 1000000 := by
        intro n y w hw hy
        have := lweight_lip (n + H / 30) (n + x / 30)
        have e : |n + H / 30 - (n + x / 30)| = |H - x| / 30 := by
          rw [show n + H / 30 - (n + x / 30) = (H - x) / 30 by ring, abs_div, abs_of_pos (by norm_num : (0:ℝ) < 30)]
        rw [e] at this
        rw [show (mx - mn) / 2 * lweight (n + H / 30) + (y - (mx + mn) / 2) = (mx - mn) / 2 * (lweight (n + H / 30) - lweight (n + x / 30)) by rw [hw, hy]; ring, abs_mul,
          abs_of_nonneg (by linarith)]
        have hd : 0 ≤ (mx - mn) / 2 := by linarith
        calc _ ≤ (mx - mn) / 2 * (2 * (|H - x| / 30)) := by gcongr
          _ = |H - x| * (mx - mn) / 30 := by ring
          _ ≤ 1 / 800 / 30 := by gcongr
          _ ≤ _ := by norm_num
      refine ⟨H, S, l, 1 / 100000, 42 / 1000000, b2, by rw [hmk H eH], H0, H1, S0, S1, l0, l1, ⟨by norm_num, by norm_num, by norm_num, fun _ => by norm_num⟩, nl, hS hδ, ch _ _ _ w1 er, ch _ _ _ w2 eg, ch _ _ _ w3 eb, ?_⟩
      rcases hb with ⟨e, hh⟩ | ⟨e, hg⟩
      · exact .inl ⟨e, fun hg => (hh hg).trans (by norm_num)⟩
      · exact .inr ⟨hg, e⟩
    · obtain ⟨H, eH, H0, H1⟩ := Color.clamp_inRange (Color.hueReduce (Leaf.hueFromRgb (fin r) (fin g) (fin b) (fin mx) (fin mx - fin mn))) (mx := 359) (mn := 0) (by norm_num)
      have ch : ∀ n y : ℝ, 0 ≤ n → n ≤ 8 → mn ≤ y → y ≤ mx → |(mx - mn) / 2 * lweight (n + H / 30) + (y - (mx + mn) / 2)| ≤ 1 / 10000 := by
        intro n y n0 n1 y0 y1
        have hw := lweight_range n0 n1 H0 H1
        have k1 : |(mx - mn) / 2 * lweight (n + H / 30)| ≤ 1 / 20000 * 1 := by
          rw [abs_mul, abs_of_nonneg (by linarith)]
          exact mul_le_mul (by linarith) hw (abs_nonneg _) (by norm_num)
        rw [abs_le] at k1 ⊢
        constructor <;> linarith
      refine ⟨H, S, l, 2 / 10000, 1 / 10000, b, by rw [hmk H (by simpa only [lit_def, zero_def] using eH)], H0, H1, S0, S1, l0, l1,
        ⟨by norm_num, by norm_num, by norm_num, fun h => by rcases h with h | h <;> linarith⟩, nl, ?_, ch _ _ (by norm_num) (by norm_num) hr1 hr2, ch _ _ (by norm_num) (by norm_num) hg1 hg2,
        ch _ _ (by norm_num) (by norm_num) hb1 hb2, .inl ⟨rfl, fun _ => by linarith⟩⟩
      have := hS' hδ.le
      have := mul_nonneg S0 (lmin_range l0.le l1).1
      rw [abs_le]
      constructor <;> linarith

/-- A component between 0 and 1 multiplied by `1 + p` and limited. -/
theorem scale_near {v p : ℝ} (v0 : 0 ≤ v) (v1 : v ≤ 1) (p0 : -1 ≤ p) (p1 : p ≤ 99) :
    Near (fmax (fmin (fin v * (1 + fin p)) 1) 0) (min (v * (1 + p)) 1) ((3 * (1 + p) + 3) / 1000000) := by
  have q0 : 0 ≤ 1 + p := by linarith
  have a := ((near_fin 1).add (near_fin p) (1 + p) (by rw [abs_of_nonneg q0]) (by linarith)).weaken (δ := ((1 + p) + 1) / 1000000) (by linarith)
  have m := ((near_fin v).mul a 1 (1 + p) (by rw [abs_of_nonneg v0]; exact v1) (by rw [abs_of_nonneg q0]) (by linarith)).weaken (δ := (3 * (1 + p) + 3) / 1000000) (by linarith)
  have e0 : 0 ≤ (3 * (1 + p) + 3) / 1000000 := by positivity
  have := (m.fmin ((near_fin 1).weaken e0)).fmax ((near_fin 0).weaken e0)
  rw [max_eq_left (le_min (mul_nonneg v0 q0) zero_le_one)] at this
  simpa only [one_def, zero_def] using this

omit [FloatModel] [SmallError] in
theorem lmin_lip (x y : ℝ) : |min x (1 - x) - min y (1 - y)| ≤ |x - y| := by
  refine (abs_min_sub_min_le_max _ _ _ _).trans (max_le le_rfl ?_)
  rw [show 1 - x - (1 - y) = -(x - y) by ring, abs_neg]

omit [FloatModel] [SmallError] in
/-- A channel of a colour whose saturation has been multiplied by `q`. -/
theorem sat_real {z l S S' t L δ y q k a e ε : ℝ} (hz : |z - (l - S' * min l (1 - l) * t)| ≤ 6 / 100000) (ht : |t| ≤ 1) (l0 : 0 ≤ l) (l1 : l ≤ 1) (hl : |l - L| ≤ 5 / 1000000)
    (hS : |S * min l (1 - l) - δ / 2| ≤ a) (hy : |δ / 2 * t + (y - L)| ≤ e) (hS' : |S' - min (S * q) 1| ≤ ε) (q0 : 0 ≤ q) (k0 : 0 ≤ k) (kq : k ≤ q)
    (hk : k * (δ / 2) = min (q * (δ / 2)) (min L (1 - L))) : |z - (L + k * (y - L))| ≤ 7 / 100000 + ε / 2 + q * (a + e) := by
  obtain ⟨m0, m1⟩ := lmin_range l0 l1
  set μ := min l (1 - l) with hμ
  have hm : |μ - min L (1 - L)| ≤ 5 / 1000000 := (lmin_lip l L).trans hl
  have a0 : 0 ≤ a := (abs_nonneg _).trans hS
  have e0 : 0 ≤ e := (abs_nonneg _).trans hy
  have ε0 : 0 ≤ ε := (abs_nonneg _).trans hS'
  -- the chroma
  have c1 : |min (S * q) 1 * μ - k * (δ / 2)| ≤ q * a + 5 / 1000000 := by
    rw [hk, min_mul_of_nonneg _ _ m0, one_mul]
    refine (abs_min_sub_min_le_max _ _ _ _).trans (max_le ?_ ?_)
    · rw [show S * q * μ - q * (δ / 2) = q * (S * μ - δ / 2) by ring, abs_mul, abs_of_nonneg q0]
      have : q * |S * μ - δ / 2| ≤ q * a := by gcongr
      linarith
    · have : 0 ≤ q * a := by positivity
      linarith
  have c2 : |(S' - min (S * q) 1) * μ| ≤ ε * (1 / 2) := by rw [abs_mul, abs_of_nonneg m0]; gcongr
  have c3 : |(S' - min (S * q) 1) * μ + (min (S * q) 1 * μ - k * (δ / 2))| * |t| ≤ (ε * (1 / 2) + (q * a + 5 / 1000000)) * 1 := by
    have := abs_add_le ((S' - min (S * q) 1) * μ) (min (S * q) 1 * μ - k * (δ / 2))
    gcongr
    linarith
  have c4 : |k * (δ / 2 * t + (y - L))| ≤ q * e := by rw [abs_mul, abs_of_nonneg k0]; gcongr
  rw [← abs_mul] at c3
  rw [show z - (L + k * (y - L)) = (z - (l - S' * μ * t)) + ((l - L) - (((S' - min (S * q) 1) * μ + (min (S * q) 1 * μ - k * (δ / 2))) * t) - k * (δ / 2 * t + (y - L))) by ring]
  rw [abs_le] at *
  constructor <;> linarith

omit [FloatModel] [SmallError] in
/-- A channel of a colour whose lightness has become `l'` instead of `L'`. -/
theorem lum_real {z l l' S t L L' δ y a e ε : ℝ} (hz : |z - (l' - S * min l' (1 - l') * t)| ≤ 6 / 100000) (ht : |t| ≤ 1) (hl : |l - L| ≤ 5 / 1000000)
    (hl' : |l' - L'| ≤ ε) (S0 : 0 ≤ S) (S1 : S ≤ 1) (hS : |S * min l (1 - l) - δ / 2| ≤ a) (hy : |δ / 2 * t + (y - L)| ≤ e) (L0 : 0 ≤ L') (L1 : L' ≤ 1) (hL : 0 < min L (1 - L)) :
    |z - (L' + min L' (1 - L') / min L (1 - L) * (y - L))| ≤ 6 / 100000 + 2 * ε + (a + e + 5 / 1000000) / (2 * min L (1 - L)) := by
  obtain ⟨m0, m1⟩ := lmin_range L0 L1
  have hm : |min l (1 - l) - min L (1 - L)| ≤ 5 / 1000000 := (lmin_lip l L).trans hl
  have hm' : |min l' (1 - l') - min L' (1 - L')| ≤ ε := (lmin_lip l' L').trans hl'
  have a0 : 0 ≤ a := (abs_nonneg _).trans hS
  have e0 : 0 ≤ e := (abs_nonneg _).trans hy
  have ε0 : 0 ≤ ε := (abs_nonneg _).trans hl'
  generalize min l (1 - l) = μ at *
  generalize min l' (1 - l') = μ' at *
  generalize min L' (1 - L') = M at *
  generalize min L (1 - L) = m at *
  have st : |S * t| ≤ 1 := by
    rw [abs_mul, abs_of_nonneg S0]
    calc S * |t| ≤ 1 * 1 := by gcongr
      _ = 1 := one_mul _
  have c1 : |(μ' - M) * (S * t)| ≤ ε * 1 := by rw [abs_mul]; gcongr
  have c2 : |S * t * m + (y - L)| ≤ a + e + 5 / 1000000 := by
    have k1 : |(m - μ) * (S * t)| ≤ 5 / 1000000 * 1 := by rw [abs_mul, abs_sub_comm]; gcongr
    have k2 : |(S * μ - δ / 2) * t| ≤ a * 1 := by rw [abs_mul]; gcongr
    rw [show S * t * m + (y - L) = (m - μ) * (S * t) + (S * μ - δ / 2) * t + (δ / 2 * t + (y - L)) by ring]
    rw [abs_le] at *
    constructor <;> linarith
  have c3 : |M / m * (S * t * m + (y - L))| ≤ (a + e + 5 / 1000000) / (2 * m) := by
    rw [abs_mul, abs_of_nonneg (div_nonneg m0 hL.le)]
    calc M / m * |S * t * m + (y - L)| ≤ (1 / 2) / m * (a + e + 5 / 1000000) := by gcongr
      _ = _ := by field_simp
  rw [show z - (L' + M / m * (y - L)) = (z - (l' - S * μ' * t)) + ((l' - L') - (μ' - M) * (S * t) - M / m * (S * t * m + (y - L))) by field_simp; ring]
  rw [abs_le] at *
  constructor <;> linarith

end

end Hue
