import Verif.RelLemmas
import Verif.Binary32
import Verif.Props.Blends3
import Mathlib.Tactic.FieldSimp

/-!
# Combining colours in single precision (C132, C133)

The theorems hold for every arithmetic with small rounding errors; `Binary32.binary32` is one.
-/

open Outcome Fl Prog ObjectSpec ConvSpec BlendSpec Hue

/-! ### Specification -/

namespace BlendSpec

/-- The modes whose formula stays between 0 and 1 and has no jump. -/
def Mode.Bounded : Mode → Prop
  | .normal | .multiply | .screen | .overlay | .darken | .lighten | .color_dodge | .color_burn | .hard_light | .soft_light | .pin_light | .difference | .exclusion => True
  | _ => False

/-- 1, or at least `2^-60` away from 1.  Every single precision number in 0..1 is. -/
def OffOne (x : ℝ) : Prop := x = 1 ∨ x ≤ 1 - 1 / 2 ^ 60

/-- Numbers at which the arithmetic cannot miss the case distinction of the formula. -/
def Mode.Apart : Mode → ℝ → ℝ → Prop
  | .color_dodge, s, _ => OffOne s
  | .color_burn, _, d => OffOne d
  | .hard_mix, s, d => 1 / 500000 < |s + d - 1|
  | _, _, _ => True

end BlendSpec

/-! ### Helper lemmas -/

namespace Blend

theorem formula_range (m : Mode) (hm : m.Bounded) (δ : ℝ) (i : Nat) {s d : ℝ} (s0 : 0 ≤ s) (s1 : s ≤ 1) (d0 : 0 ≤ d) (d1 : d ≤ 1) : 0 ≤ m.formula δ i s d ∧ m.formula δ i s d ≤ 1 := by
  have p1 := mul_nonneg s0 d0
  have p2 := mul_nonneg (sub_nonneg.mpr s1) (sub_nonneg.mpr d1)
  have p3 := mul_nonneg s0 (sub_nonneg.mpr d1)
  have p4 := mul_nonneg d0 (sub_nonneg.mpr s1)
  cases m <;> first | exact absurd hm id | skip
  all_goals simp only [Mode.formula]
  case normal => exact ⟨s0, s1⟩
  case multiply => constructor <;> nlinarith
  case screen => constructor <;> nlinarith
  case overlay => split_ifs <;> constructor <;> nlinarith
  case darken => exact ⟨le_min s0 d0, (min_le_left _ _).trans s1⟩
  case lighten => exact ⟨s0.trans (le_max_left _ _), max_le s1 d1⟩
  case color_dodge =>
    split_ifs
    · norm_num
    · norm_num
    · exact ⟨le_min (div_nonneg d0 (by linarith)) zero_le_one, min_le_right _ _⟩
  case color_burn =>
    split_ifs
    · norm_num
    · norm_num
    · exact ⟨le_min (div_nonneg (by linarith) s0) zero_le_one, min_le_right _ _⟩
  case hard_light => split_ifs <;> constructor <;> nlinarith
  case soft_light => split_ifs <;> constructor <;> nlinarith
  case pin_light =>
    split_ifs
    · exact ⟨le_min d0 (by linarith), (min_le_left _ _).trans d1⟩
    · exact ⟨d0.trans (le_max_left _ _), max_le d1 (by linarith)⟩
  case difference => exact ⟨abs_nonneg _, abs_le.mpr ⟨by linarith, by linarith⟩⟩
  case exclusion => constructor <;> nlinarith

variable [FloatModel] [SmallError]

theorem n_add {x y : Fl} {a b k l : ℝ} (hx : Near x a (k / 1000000)) (hy : Near y b (l / 1000000)) (h : |a + b| ≤ 2) (hkl : k + l ≤ 100) :
    Near (x + y) (a + b) ((k + l + 3.1) / 1000000) := (hx.add hy 2 h (by linarith)).weaken (by linarith)

theorem n_sub {x y : Fl} {a b k l : ℝ} (hx : Near x a (k / 1000000)) (hy : Near y b (l / 1000000)) (h : |a - b| ≤ 1) (hkl : k + l ≤ 100) :
    Near (x - y) (a - b) ((k + l + 2.1) / 1000000) := (hx.sub hy 1 h (by linarith)).weaken (by linarith)

theorem n_mul {x y : Fl} {a b k l : ℝ} (hx : Near x a (k / 1000000)) (hy : Near y b (l / 1000000)) (ha : |a| ≤ 1) (hb : |b| ≤ 1) (hk : k ≤ 100) (hl : l ≤ 100) :
    Near (x * y) (a * b) ((k + l + 2.2) / 1000000) := by
  have k0 : 0 ≤ k := by have := hx.nonneg; linarith
  have l0 : 0 ≤ l := by have := hy.nonneg; linarith
  have := mul_le_mul hk hl l0 (by norm_num)
  have := mul_nonneg k0 l0
  have h3 : k * l ≤ 100 * k := by nlinarith
  have h4 : k / 1000000 * (l / 1000000) ≤ 0.01 / 1000000 := by
    rw [div_mul_div_comm, div_le_div_iff₀ (by norm_num) (by norm_num)]; nlinarith
  exact (hx.mul hy 1 1 ha hb (by linarith)).weaken (by linarith)

theorem n_mul2 {x y : Fl} {a b k l : ℝ} (hx : Near x a (k / 1000000)) (hy : Near y b (l / 1000000)) (ha : |a| ≤ 2) (hb : |b| ≤ 1) (hk : k ≤ 100) (hl : l ≤ 100) :
    Near (x * y) (a * b) ((k + 2 * l + 3.2) / 1000000) := by
  have k0 : 0 ≤ k := by have := hx.nonneg; linarith
  have l0 : 0 ≤ l := by have := hy.nonneg; linarith
  have := mul_le_mul hk hl l0 (by norm_num)
  have := mul_nonneg k0 l0
  have h4 : k / 1000000 * (l / 1000000) ≤ 0.01 / 1000000 := by
    rw [div_mul_div_comm, div_le_div_iff₀ (by norm_num) (by norm_num)]; nlinarith
  exact (hx.mul hy 2 1 ha hb (by linarith)).weaken (by linarith)

omit [FloatModel] [SmallError] in
theorem n_fin (r : ℝ) : Near (fin r) r (0 / 1000000) := by simpa using near_fin r

omit [FloatModel] [SmallError] in
theorem n_two : Near (2 : Fl) 2 (0 / 1000000) := by simpa using n_fin 2

omit [FloatModel] [SmallError] in
theorem n_one : Near (1 : Fl) 1 (0 / 1000000) := by simpa using n_fin 1

/-- A quotient limited to 1. -/
theorem capped {x y a b : ℝ} (hx : |x - a| ≤ 2 / 2 ^ 20 * a) (hy : |y - b| ≤ 2 / 2 ^ 20 * b) (ha : 0 ≤ a) (hb : 0 < b) :
    Near (if fin x / fin y ≤ fin 1 then fin x / fin y else fin 1) (min (a / b) 1) (11 / 2 ^ 20) := by
  have hu : (2 / 2 ^ 20 : ℝ) ≤ 0.00001 := by norm_num
  have hyb : 0.99998 * b ≤ y := by
    have := (abs_le.mp hy).1
    nlinarith
  have hy0 : 0 < y := lt_of_lt_of_le (by positivity) hyb
  have hR : 0 ≤ a / b := by positivity
  have hQ : |x / y - a / b| ≤ 4.1 / 2 ^ 20 * (a / b) := by
    have e : x / y - a / b = ((x - a) + (a / b) * (b - y)) / y := by field_simp; ring
    rw [e, abs_div, abs_of_pos hy0, div_le_iff₀ hy0]
    refine (abs_add_le _ _).trans ?_
    rw [abs_mul, abs_of_nonneg hR, abs_sub_comm b y]
    have h1 : a / b * |y - b| ≤ a / b * (2 / 2 ^ 20 * b) := by gcongr
    have h2 : a / b * (2 / 2 ^ 20 * b) = 2 / 2 ^ 20 * a := by field_simp
    have h3 : 4.1 / 2 ^ 20 * (a / b) * (0.99998 * b) ≤ 4.1 / 2 ^ 20 * (a / b) * y := by gcongr
    have h4 : 4.1 / 2 ^ 20 * (a / b) * (0.99998 * b) = 4.1 / 2 ^ 20 * 0.99998 * a := by field_simp
    have h5 : 4 / 2 ^ 20 * a ≤ 4.1 / 2 ^ 20 * 0.99998 * a := by gcongr; norm_num
    linarith
  rw [fin_div _ _ hy0.ne']
  by_cases h : a / b ≤ 2
  · have hq : |x / y| ≤ 2.1 := by
      have := abs_add_le (x / y - a / b) (a / b)
      rw [sub_add_cancel, abs_of_nonneg hR] at this
      have : (4.1 / 2 ^ 20 : ℝ) ≤ 0.01 := by norm_num
      nlinarith
    obtain ⟨t, h1, h2⟩ := SmallError.rnd_near (x / y) (hq.trans (by norm_num))
    have h3 : |t - a / b| ≤ 11 / 2 ^ 20 := by
      have h4 := abs_sub_le t (x / y) (a / b)
      have h5 : |x / y| / 2 ^ 20 ≤ 2.1 / 2 ^ 20 := by gcongr
      have h6 : 4.1 / 2 ^ 20 * (a / b) ≤ 4.1 / 2 ^ 20 * 2 := by gcongr
      have : (2.1 / 2 ^ 20 + 1 / 2 ^ 100 + 4.1 / 2 ^ 20 * 2 : ℝ) ≤ 11 / 2 ^ 20 := by norm_num
      linarith
    refine ⟨min t 1, ?_, ?_⟩
    · rw [h1]
      simp only [fin_le]
      split_ifs with hc
      · rw [min_eq_left hc]
      · rw [min_eq_right (not_le.mp hc).le]
    · refine (abs_min_sub_min_le_max _ _ _ _).trans (max_le h3 (by norm_num))
  · have h' := not_le.mp h
    have h1 : 1.9 ≤ x / y := by
      have := (abs_le.mp hQ).1
      have : (4.1 / 2 ^ 20 : ℝ) ≤ 0.01 := by norm_num
      nlinarith
    have h2 := FloatModel.rnd_mono _ _ h1
    obtain ⟨t, h3, h4⟩ := SmallError.rnd_near 1.9 (by norm_num)
    have h5 : 1 < t := by
      have := (abs_le.mp h4).1
      norm_num at this
      linarith
    rw [min_eq_right (by linarith), if_neg]
    · exact (near_fin 1).weaken (by norm_num)
    · intro hc
      rw [h3] at h2
      have := Fl.le_trans' h2 hc
      exact absurd (fin_le.mp this) (not_le.mpr h5)

theorem complement {x : ℝ} (h1 : x ≤ 1) (h : OffOne x) (h0 : 0 ≤ x) (hne : x ≠ 1) : ∃ y, fin 1 - fin x = fin y ∧ |y - (1 - x)| ≤ 2 / 2 ^ 20 * (1 - x) := by
  have hx : x ≤ 1 - 1 / 2 ^ 60 := h.resolve_left hne
  have ha : |1 - x| = 1 - x := abs_of_nonneg (by linarith)
  obtain ⟨y, h1, h2⟩ := SmallError.rnd_near (1 - x) (by rw [ha]; linarith [show (10 : ℝ) ≤ 2 ^ 100 by norm_num])
  refine ⟨y, by rw [fin_sub, h1], h2.trans ?_⟩
  rw [ha]
  have : (1 : ℝ) / 2 ^ 100 ≤ 1 / 2 ^ 40 * (1 - x) := by
    calc (1 : ℝ) / 2 ^ 100 = 1 / 2 ^ 40 * (1 / 2 ^ 60) := by norm_num
      _ ≤ _ := by gcongr; linarith
  have : (1 / 2 ^ 40 : ℝ) * (1 - x) ≤ 1 / 2 ^ 20 * (1 - x) := by
    have : 0 ≤ 1 - x := by linarith
    gcongr <;> norm_num
  linarith

/-- The function of the both region. -/
theorem mode_near (m : Mode) (hm : m.Bounded) (sc dc : Color) (δ : ℝ) (i : Nat) {s d : ℝ} (s0 : 0 ≤ s) (s1 : s ≤ 1) (d0 : 0 ≤ d) (d1 : d ≤ 1) (ha : m.Apart s d) :
    Near (modeF m sc dc i (fin s) (fin d)) (m.formula δ i s d) (25 / 1000000) := by
  have half : (0.5 : ℝ) = 1 / 2 := by norm_num
  have as : |s| ≤ 1 := by rw [abs_of_nonneg s0]; exact s1
  have ad : |d| ≤ 1 := by rw [abs_of_nonneg d0]; exact d1
  have a1s : |1 - s| ≤ 1 := by rw [abs_of_nonneg (by linarith)]; linarith
  have a1d : |1 - d| ≤ 1 := by rw [abs_of_nonneg (by linarith)]; linarith
  have ns := n_fin s
  have nd := n_fin d
  have hl : ∀ {s d : ℝ}, 0 ≤ s → s ≤ 1 → 0 ≤ d → d ≤ 1 → Near (ColorBlend.hard_light_func (fin s) (fin d)) (if s ≤ 1 / 2 then 2 * s * d else 1 - 2 * (1 - s) * (1 - d)) (25 / 1000000) := by
    intro s d s0 s1 d0 d1
    have as : |s| ≤ 1 := by rw [abs_of_nonneg s0]; exact s1
    have ad : |d| ≤ 1 := by rw [abs_of_nonneg d0]; exact d1
    unfold ColorBlend.hard_light_func
    simp only [fin_le, half]
    split_ifs with h
    · have h1 : Near (fin d * 2) (d * 2) ((0 + 2 * 0 + 3.2) / 1000000) := by
        have := (n_fin d).mul n_two 1 2 ad (by norm_num) (by norm_num)
        exact this.weaken (by norm_num)
      have h2 := h1.mul (n_fin s) 2 (1 / 2) (by rw [abs_mul, abs_two]; linarith) (by rw [abs_of_nonneg s0]; exact h) (by norm_num)
      rw [show 2 * s * d = d * 2 * s by ring]
      exact h2.weaken (by norm_num)
    · have h := not_le.mp h
      have e1 : |s - 1 / 2| ≤ 1 / 2 := abs_le.mpr ⟨by linarith, by linarith⟩
      have h1 := n_sub (n_fin s) (n_fin (1 / 2)) (by linarith) (by norm_num)
      have h2 := n_mul2 n_two h1 (by norm_num) (by linarith) (by norm_num) (by norm_num)
      have h3 := n_sub n_one h2 (abs_le.mpr ⟨by linarith, by linarith⟩) (by norm_num)
      have h4 := n_sub n_one (n_fin d) (abs_le.mpr ⟨by linarith, by linarith⟩) (by norm_num)
      have h5 := n_mul h4 h3 (abs_le.mpr ⟨by linarith, by linarith⟩) (abs_le.mpr ⟨by linarith, by linarith⟩) (by norm_num) (by norm_num)
      have h6 := n_sub n_one h5 (abs_le.mpr ⟨by nlinarith, by nlinarith⟩) (by norm_num)
      rw [show 1 - 2 * (1 - s) * (1 - d) = 1 - (1 - d) * (1 - 2 * (s - 1 / 2)) by ring]
      exact h6.weaken (by norm_num)
  cases m <;> first | exact absurd hm id | skip
  all_goals simp only [Mode.formula, modeF]
  case normal => exact ns.weaken (by norm_num)
  case multiply => exact (n_mul ns nd as ad (by norm_num) (by norm_num)).weaken (by norm_num)
  case screen =>
    have h1 := n_mul (n_sub n_one nd a1d (by norm_num)) (n_sub n_one ns a1s (by norm_num)) a1d a1s (by norm_num) (by norm_num)
    have h2 := n_sub n_one h1 (abs_le.mpr ⟨by nlinarith, by nlinarith⟩) (by norm_num)
    rw [show s + d - s * d = 1 - (1 - d) * (1 - s) by ring]
    exact h2.weaken (by norm_num)
  case overlay =>
    have := hl d0 d1 s0 s1
    rw [show 2 * s * d = 2 * d * s by ring, show 2 * (1 - s) * (1 - d) = 2 * (1 - d) * (1 - s) by ring]
    exact this
  case darken => exact (ns.fmin nd).weaken (by norm_num)
  case lighten => exact (ns.fmax nd).weaken (by norm_num)
  case color_dodge =>
    simp only [ColorBlend.color_dodge_func, zero_def, one_def, feq_fin]
    split_ifs with h1 h2
    · exact (near_fin 0).weaken (by norm_num)
    · exact (near_fin 1).weaken (by norm_num)
    · obtain ⟨y, e, hy⟩ := complement s1 ha s0 h2
      rw [e]
      have hs : s < 1 := lt_of_le_of_ne s1 h2
      have := capped (x := d) (a := d) (by rw [sub_self, abs_zero]; positivity) hy d0 (by linarith)
      rename_i h3
      rw [e] at h3
      rw [if_pos h3] at this
      exact this.weaken (by norm_num)
    · obtain ⟨y, e, hy⟩ := complement s1 ha s0 h2
      have hs : s < 1 := lt_of_le_of_ne s1 h2
      have := capped (x := d) (a := d) (by rw [sub_self, abs_zero]; positivity) hy d0 (by linarith)
      rename_i h3
      rw [e] at h3
      rw [if_neg h3] at this
      exact this.weaken (by norm_num)
  case color_burn =>
    simp only [ColorBlend.color_burn_func, zero_def, one_def, feq_fin]
    split_ifs with h1 h2 h3
    · exact (near_fin 0).weaken (by norm_num)
    · exact (near_fin 1).weaken (by norm_num)
    · obtain ⟨y, e, hy⟩ := complement d1 ha d0 h1
      have hs : 0 < s := lt_of_le_of_ne s0 (Ne.symm h2)
      have := capped (y := s) (b := s) hy (by rw [sub_self, abs_zero]; positivity) (by linarith) hs
      rw [e] at h3 ⊢
      rw [if_pos h3] at this
      exact this.weaken (by norm_num)
    · obtain ⟨y, e, hy⟩ := complement d1 ha d0 h1
      have hs : 0 < s := lt_of_le_of_ne s0 (Ne.symm h2)
      have := capped (y := s) (b := s) hy (by rw [sub_self, abs_zero]; positivity) (by linarith) hs
      rw [e] at h3
      rw [if_neg h3] at this
      exact this.weaken (by norm_num)
  case hard_light => exact hl s0 s1 d0 d1
  case soft_light =>
    unfold ColorBlend.soft_light_func
    simp only [fin_le, half]
    split_ifs with h
    · have h1 := n_add ns (n_fin (1 / 2)) (abs_le.mpr ⟨by linarith, by linarith⟩) (by norm_num)
      exact (n_mul nd h1 ad (abs_le.mpr ⟨by linarith, by linarith⟩) (by norm_num) (by norm_num)).weaken (by norm_num)
    · have h := not_le.mp h
      have h1 := n_sub ns (n_fin (1 / 2)) (abs_le.mpr ⟨by linarith, by linarith⟩) (by norm_num)
      have h2 := n_mul n_one h1 (by norm_num) (abs_le.mpr ⟨by linarith, by linarith⟩) (by norm_num) (by norm_num)
      have h3 := n_mul (n_sub n_one nd a1d (by norm_num)) h2 a1d (abs_le.mpr ⟨by linarith, by linarith⟩) (by norm_num) (by norm_num)
      have h4 := n_sub n_one h3 (abs_le.mpr ⟨by nlinarith, by nlinarith⟩) (by norm_num)
      rw [one_mul] at h4
      exact h4.weaken (by norm_num)
  case pin_light =>
    unfold ColorBlend.pin_light_func
    simp only [fin_le, half]
    split_ifs with h
    · have h1 := n_mul2 n_two ns (by norm_num) as (by norm_num) (by norm_num)
      exact ((nd.weaken (by norm_num)).fmin h1).weaken (by norm_num)
    · have h := not_le.mp h
      have h1 := n_sub ns (n_fin (1 / 2)) (abs_le.mpr ⟨by linarith, by linarith⟩) (by norm_num)
      have h2 := n_mul2 n_two h1 (by norm_num) (abs_le.mpr ⟨by linarith, by linarith⟩) (by norm_num) (by norm_num)
      rw [show 2 * (s - 1 / 2) = 2 * s - 1 by ring] at h2
      exact ((nd.weaken (by norm_num)).fmax h2).weaken (by norm_num)
  case difference =>
    have h1 := n_sub nd ns (abs_le.mpr ⟨by linarith, by linarith⟩) (by norm_num)
    rw [abs_sub_comm]
    exact h1.abs.weaken (by norm_num)
  case exclusion =>
    have h1 := n_add nd ns (abs_le.mpr ⟨by linarith, by linarith⟩) (by norm_num)
    have h2 := n_mul2 n_two nd (by norm_num) ad (by norm_num) (by norm_num)
    have h3 := h2.mul ns 2 1 (by rw [abs_mul, abs_two]; linarith) as (by norm_num)
    have h4 := h1.sub h3 1 (abs_le.mpr ⟨by nlinarith, by nlinarith⟩) (by norm_num)
    rw [show s + d - 2 * s * d = d + s - 2 * d * s by ring]
    exact h4.weaken (by norm_num)

end Blend

/-! ### Properties -/

section
variable [FloatModel] [SmallError]

/-! ## C132: Porter-Duff operators in single precision -/

/-- C132: in every arithmetic with small rounding errors a Porter-Duff operator gives the alpha of the table up to 6 parts in a million and each channel up to 1 / 70000,
however transparent the colours are.  Where the table says fully transparent, the result is exactly that. -/
theorem C132_table (op : PdOp) (w : World) (s d : Color) (s0 s1 s2 sa d0 d1 d2 da : ℝ) (hs : IsPixel s s0 s1 s2 sa) (hd : IsPixel d d0 d1 d2 da)
    (hsp : s.space = d.space) (α : ℝ) (hα : α = sa * op.Fa sa da + da * op.Fb sa da) (hα' : α = 0 ∨ 1 / 2 ^ 60 ≤ α)
    (x0 x1 x2 : ℝ) (u0 : Unmultiplied α (sa * op.Fa sa da * s0 + da * op.Fb sa da * d0) x0) (u1 : Unmultiplied α (sa * op.Fa sa da * s1 + da * op.Fb sa da * d1) x1)
    (u2 : Unmultiplied α (sa * op.Fa sa da * s2 + da * op.Fb sa da * d2) x2) :
    ∃ r0 r1 r2 ra, Yields op.run w s d (obj .rgbDeep r0 r1 r2 (fin ra) s.space) ∧ |ra - α| ≤ 6 / 1000000 * α ∧
      |r0 - x0| ≤ 1 / 70000 ∧ |r1 - x1| ≤ 1 / 70000 ∧ |r2 - x2| ≤ 1 / 70000 ∧ (α = 0 → r0 = 0 ∧ r1 = 0 ∧ r2 = 0) := by
  have ha := Blend.alphaOf_table op sa da
  rw [← hα] at ha
  have hf : (fun _ a b => Blend.fOf op a b : Nat → Fl → Fl → Fl) = fun _ a b => if Blend.ubOf op then Blend.fOf op a b else 0 := by
    cases op <;> rfl
  have near : ∀ a b : ℝ, Near (Blend.fOf op (fin a) (fin b)) (Blend.vOf op a b) 0 := by
    intro a b; rw [Blend.fOf_fin]; exact near_fin _
  have rng : ∀ {a b : ℝ}, 0 ≤ a → a ≤ 1 → 0 ≤ b → b ≤ 1 → 0 ≤ Blend.vOf op a b ∧ Blend.vOf op a b ≤ 1 := by
    intro a b a0 a1 b0 b1; cases op <;> simp [Blend.vOf, *]
  have wv : ∀ a b : ℝ, Blend.weight (Blend.ubOf op) * Blend.vOf op a b = Blend.vOf op a b := by
    intro a b; cases op <;> simp [Blend.vOf, Blend.weight, Blend.ubOf]
  obtain ⟨r0, r1, r2, ra, hg, ea, e0, e1, e2, ez⟩ := Blend.gpd_near hs.rgb.col hs.rgb.comps hs.alpha hd.rgb.col hd.rgb.comps hd.alpha (Blend.usOf op) (Blend.udOf op)
    (Blend.ubOf op) (fun _ a b => Blend.fOf op a b) (fun _ a b => Blend.fOf op a b) hf (near s0 d0) (near s1 d1) (near s2 d2) (by norm_num) hs.a0 hs.a1 hd.a0 hd.a1
    ⟨⟨hs.rgb.r0, hs.rgb.r1⟩, ⟨hs.rgb.g0, hs.rgb.g1⟩, ⟨hs.rgb.b0, hs.rgb.b1⟩⟩ ⟨⟨hd.rgb.r0, hd.rgb.r1⟩, ⟨hd.rgb.g0, hd.rgb.g1⟩, ⟨hd.rgb.b0, hd.rgb.b1⟩⟩
    ⟨rng hs.rgb.r0 hs.rgb.r1 hd.rgb.r0 hd.rgb.r1, rng hs.rgb.g0 hs.rgb.g1 hd.rgb.g0 hd.rgb.g1, rng hs.rgb.b0 hs.rgb.b1 hd.rgb.b0 hd.rgb.b1⟩ (by rw [ha]; exact hα')
  have hy := Blend.operator_rgb (f := fun _ _ _ s d => Blend.fOf op s d) (w := w) hs.rgb.col hd.rgb.col hsp hg
  rw [← Blend.run_eq] at hy
  simp only [wv, Blend.comb_table, ha] at ea e0 e1 e2 ez
  have conv : ∀ {p x r : ℝ}, Unmultiplied α p x → (α = 0 → r = 0) → |r - Blend.quot α p| ≤ 14 / 2 ^ 20 + 1.01 * 0 → |r - x| ≤ 1 / 70000 := by
    intro p x r hu hz h
    by_cases h0 : α = 0
    · rw [hz h0, hu.2 h0]; norm_num
    · have : Blend.quot α p = x := by rw [Blend.quot, if_neg h0, ← hu.1, mul_div_cancel_right₀ _ h0]
      rw [this] at h
      exact h.trans (by norm_num)
  refine ⟨r0, r1, r2, ra, hy, ea.trans ?_, conv u0 (fun h => (ez h).1) e0, conv u1 (fun h => (ez h).2.1) e1, conv u2 (fun h => (ez h).2.2.1) e2,
    fun h => ⟨(ez h).1, (ez h).2.1, (ez h).2.2.1⟩⟩
  have hp : 0 ≤ α := by rw [← ha]; exact (Blend.alphaOf_range _ _ _ hs.a0 hs.a1 hd.a0 hd.a1).1
  gcongr
  norm_num

end

/-- Case: in single precision, a nearly transparent red over a blue that is a thousand times more transparent. -/
example (w : World) : letI := Binary32.binary32
    ∃ r0 r1 r2 ra, Yields PdOp.over.run w (obj .rgbDeep 1 0 0 (fin (1 / 2 ^ 10)) none) (obj .rgbDeep 0 0 1 (fin (1 / 2 ^ 20)) none) (obj .rgbDeep r0 r1 r2 (fin ra) none) ∧
      |r0 - 2 ^ 20 / (2 ^ 20 + 2 ^ 10 - 1)| ≤ 1 / 70000 ∧ |r2 - (2 ^ 10 - 1) / (2 ^ 20 + 2 ^ 10 - 1)| ≤ 1 / 70000 := by
  letI := Binary32.binary32
  haveI := Binary32.binary32_small
  obtain ⟨r0, r1, r2, ra, h1, -, h2, -, h3, -⟩ := C132_table .over w _ _ 1 0 0 (1 / 2 ^ 10) 0 0 1 (1 / 2 ^ 20)
    (isPixel_obj none (by norm_num) (by norm_num) (by norm_num) (by norm_num)) (isPixel_obj none (by norm_num) (by norm_num) (by norm_num) (by norm_num)) rfl _ rfl
    (Or.inr (by norm_num [PdOp.Fa, PdOp.Fb])) (2 ^ 20 / (2 ^ 20 + 2 ^ 10 - 1)) 0 ((2 ^ 10 - 1) / (2 ^ 20 + 2 ^ 10 - 1))
    ⟨by norm_num [PdOp.Fa, PdOp.Fb], by norm_num [PdOp.Fa, PdOp.Fb]⟩ ⟨by norm_num [PdOp.Fa, PdOp.Fb], by norm_num [PdOp.Fa, PdOp.Fb]⟩
    ⟨by norm_num [PdOp.Fa, PdOp.Fb], by norm_num [PdOp.Fa, PdOp.Fb]⟩
  exact ⟨r0, r1, r2, ra, h1, h2, h3⟩

section
variable [FloatModel] [SmallError]

/-! ## C133: blend modes in single precision -/

/-- The value a blend mode should give: both colours on the area they cover alone, the formula where they overlap. -/
theorem Blend.mode_gives (m : Mode) (hm : m.Bounded) (w : World) (us ud : Bool) (s d : Color) (s0 s1 s2 sa d0 d1 d2 da : ℝ) (hs : IsPixel s s0 s1 s2 sa) (hd : IsPixel d d0 d1 d2 da)
    (hsp : s.space = d.space) (a0 : m.Apart s0 d0) (a1 : m.Apart s1 d1) (a2 : m.Apart s2 d2)
    (hα : Blend.alphaOf us ud true sa da = 0 ∨ 1 / 2 ^ 60 ≤ Blend.alphaOf us ud true sa da) :
    ∃ r0 r1 r2 ra, Yields (m.run us ud) w s d (obj .rgbDeep r0 r1 r2 (fin ra) s.space) ∧
      |ra - Blend.alphaOf us ud true sa da| ≤ 6 / 1000000 * Blend.alphaOf us ud true sa da ∧
      |r0 - Blend.quot (Blend.alphaOf us ud true sa da) (Blend.comb us ud sa da s0 d0 (m.formula (sa - da) 0 s0 d0))| ≤ 1 / 25000 ∧
      |r1 - Blend.quot (Blend.alphaOf us ud true sa da) (Blend.comb us ud sa da s1 d1 (m.formula (sa - da) 1 s1 d1))| ≤ 1 / 25000 ∧
      |r2 - Blend.quot (Blend.alphaOf us ud true sa da) (Blend.comb us ud sa da s2 d2 (m.formula (sa - da) 2 s2 d2))| ≤ 1 / 25000 ∧
      (Blend.alphaOf us ud true sa da = 0 → r0 = 0 ∧ r1 = 0 ∧ r2 = 0) := by
  have n0 := Blend.mode_near m hm s d (sa - da) 0 hs.rgb.r0 hs.rgb.r1 hd.rgb.r0 hd.rgb.r1 a0
  have n1 := Blend.mode_near m hm s d (sa - da) 1 hs.rgb.g0 hs.rgb.g1 hd.rgb.g0 hd.rgb.g1 a1
  have n2 := Blend.mode_near m hm s d (sa - da) 2 hs.rgb.b0 hs.rgb.b1 hd.rgb.b0 hd.rgb.b1 a2
  obtain ⟨r0, r1, r2, ra, hg, ea, e0, e1, e2, ez⟩ := Blend.gpd_near hs.rgb.col hs.rgb.comps hs.alpha hd.rgb.col hd.rgb.comps hd.alpha us ud true
    (Blend.modeF m s d) (Blend.modeF m s d) (by simp) n0 n1 n2 (by norm_num) hs.a0 hs.a1 hd.a0 hd.a1
    ⟨⟨hs.rgb.r0, hs.rgb.r1⟩, ⟨hs.rgb.g0, hs.rgb.g1⟩, ⟨hs.rgb.b0, hs.rgb.b1⟩⟩ ⟨⟨hd.rgb.r0, hd.rgb.r1⟩, ⟨hd.rgb.g0, hd.rgb.g1⟩, ⟨hd.rgb.b0, hd.rgb.b1⟩⟩
    ⟨Blend.formula_range m hm _ 0 hs.rgb.r0 hs.rgb.r1 hd.rgb.r0 hd.rgb.r1, Blend.formula_range m hm _ 1 hs.rgb.g0 hs.rgb.g1 hd.rgb.g0 hd.rgb.g1,
      Blend.formula_range m hm _ 2 hs.rgb.b0 hs.rgb.b1 hd.rgb.b0 hd.rgb.b1⟩ hα
  have hy := Blend.operator_rgb (f := Blend.modeF m) (w := w) hs.rgb.col hd.rgb.col hsp hg
  rw [← Blend.mode_eq] at hy
  have w1 : ∀ x : ℝ, Blend.weight true * x = x := by intro x; simp [Blend.weight]
  simp only [w1] at e0 e1 e2
  have hp := (Blend.alphaOf_range us ud true hs.a0 hs.a1 hd.a0 hd.a1).1
  exact ⟨r0, r1, r2, ra, hy, ea.trans (by gcongr; norm_num), e0.trans (by norm_num), e1.trans (by norm_num), e2.trans (by norm_num), fun h => ⟨(ez h).1, (ez h).2.1, (ez h).2.2.1⟩⟩

/-- C133: in every arithmetic with small rounding errors the modes without a jump give the exact blend of two colours of any opacity up to 1 / 25000 per channel,
and the alpha of `over` up to 6 parts in a million. -/
theorem C133_translucent_partial (m : Mode) (hm : m.Bounded) (w : World) (s d : Color) (s0 s1 s2 sa d0 d1 d2 da : ℝ) (hs : IsPixel s s0 s1 s2 sa) (hd : IsPixel d d0 d1 d2 da)
    (hsp : s.space = d.space) (a0 : m.Apart s0 d0) (a1 : m.Apart s1 d1) (a2 : m.Apart s2 d2) (α : ℝ) (hα : α = sa + da - sa * da) (hα' : α = 0 ∨ 1 / 2 ^ 60 ≤ α)
    (x0 x1 x2 : ℝ) (u0 : Unmultiplied α (sa * (1 - da) * s0 + da * (1 - sa) * d0 + sa * da * m.formula (sa - da) 0 s0 d0) x0)
    (u1 : Unmultiplied α (sa * (1 - da) * s1 + da * (1 - sa) * d1 + sa * da * m.formula (sa - da) 1 s1 d1) x1)
    (u2 : Unmultiplied α (sa * (1 - da) * s2 + da * (1 - sa) * d2 + sa * da * m.formula (sa - da) 2 s2 d2) x2) :
    ∃ r0 r1 r2 ra, Yields (m.run true true) w s d (obj .rgbDeep r0 r1 r2 (fin ra) s.space) ∧ |ra - α| ≤ 6 / 1000000 * α ∧
      |r0 - x0| ≤ 1 / 25000 ∧ |r1 - x1| ≤ 1 / 25000 ∧ |r2 - x2| ≤ 1 / 25000 := by
  have ha : Blend.alphaOf true true true sa da = α := by rw [hα]; simp [Blend.alphaOf, Blend.weight]; ring
  have hc : ∀ a b v : ℝ, Blend.comb true true sa da a b v = sa * (1 - da) * a + da * (1 - sa) * b + sa * da * v := by intro a b v; simp [Blend.comb, Blend.weight]
  obtain ⟨r0, r1, r2, ra, hy, ea, e0, e1, e2, ez⟩ := Blend.mode_gives m hm w true true s d s0 s1 s2 sa d0 d1 d2 da hs hd hsp a0 a1 a2 (by rw [ha]; exact hα')
  simp only [ha, hc] at ea e0 e1 e2 ez
  have conv : ∀ {p x r : ℝ}, Unmultiplied α p x → (α = 0 → r = 0) → |r - Blend.quot α p| ≤ 1 / 25000 → |r - x| ≤ 1 / 25000 := by
    intro p x r hu hz h
    by_cases h0 : α = 0
    · rw [hz h0, hu.2 h0]; norm_num
    · have : Blend.quot α p = x := by rw [Blend.quot, if_neg h0, ← hu.1, mul_div_cancel_right₀ _ h0]
      rwa [this] at h
  exact ⟨r0, r1, r2, ra, hy, ea, conv u0 (fun h => (ez h).1) e0, conv u1 (fun h => (ez h).2.1) e1, conv u2 (fun h => (ez h).2.2) e2⟩

/-! ### Helper lemmas: the modes that leave 0..1 -/

namespace Blend

/-- `x` is not NaN, and limiting it to 0..1 gives a number near the limited `v`. -/
def Lim (x : Fl) (v ε : ℝ) : Prop := x ≠ nan ∧ Near (Color.clamp x 1 0) (limit v) ε

omit [FloatModel] [SmallError] in
theorem clamp_fin (y : ℝ) : Color.clamp (fin y) 1 0 = fin (limit y) := by
  simp only [Color.clamp, one_def, zero_def, fmin_fin, fmax_fin]
  rw [limit, max_comm, min_comm]

omit [FloatModel] [SmallError] in
theorem limit_close {x y ε : ℝ} (h : |x - y| ≤ ε) : |limit x - limit y| ≤ ε := by
  have h0 := (abs_nonneg _).trans h
  refine (abs_max_sub_max_le_max _ _ _ _).trans (max_le (by simpa using h0) ?_)
  exact (abs_min_sub_min_le_max _ _ _ _).trans (max_le (by simpa using h0) h)

omit [FloatModel] [SmallError] in
theorem lim_of_near {x : Fl} {v ε : ℝ} (h : Near x v ε) : Lim x v ε := by
  obtain ⟨y, rfl, hy⟩ := h
  exact ⟨by simp, _, clamp_fin y, limit_close hy⟩

omit [FloatModel] [SmallError] in
theorem Lim.weaken {x : Fl} {v ε δ : ℝ} (h : Lim x v ε) (hd : ε ≤ δ) : Lim x v δ := ⟨h.1, h.2.weaken hd⟩

variable [IntExact]

/-- Rounding any number. -/
theorem lim_rnd (y : ℝ) : Lim (rnd y) y (2 / 1000000) := by
  have r1 : rnd (1 : ℝ) = fin 1 := by simpa using IntExact.rnd_int 1 (by norm_num)
  by_cases h1 : 1 ≤ y
  · have h := FloatModel.rnd_mono _ _ h1
    rw [r1] at h
    have e : limit y = 1 := by rw [limit, min_eq_left h1]; norm_num
    rw [Lim, e]
    cases hy : rnd y with
    | nan => rw [hy] at h; exact absurd h (by simp)
    | ninf => rw [hy] at h; exact absurd h id
    | pinf => exact ⟨by simp, 1, by simp [Color.clamp, fmin, fmax, one_def, zero_def], by norm_num⟩
    | fin z =>
      rw [hy] at h
      refine ⟨by simp, 1, ?_, by norm_num⟩
      rw [clamp_fin, limit, min_eq_left (fin_le.mp h)]; norm_num
  · by_cases h0 : y ≤ 0
    · have h := FloatModel.rnd_mono _ _ h0
      rw [FloatModel.rnd_zero] at h
      have e : limit y = 0 := by rw [limit, min_eq_right (by linarith), max_eq_left h0]
      rw [Lim, e]
      cases hy : rnd y with
      | nan => rw [hy] at h; exact absurd h (by simp)
      | pinf => rw [hy] at h; exact absurd h id
      | ninf => exact ⟨by simp, 0, by simp [Color.clamp, fmin, fmax, one_def, zero_def], by norm_num⟩
      | fin z =>
        rw [hy] at h
        refine ⟨by simp, 0, ?_, by norm_num⟩
        rw [clamp_fin, limit, min_eq_right (by linarith [fin_le.mp h]), max_eq_left (fin_le.mp h)]
    · have h0 := not_le.mp h0
      have h1 := not_le.mp h1
      refine lim_of_near ((near_rnd (by rw [abs_of_pos h0]; linarith)).weaken ?_)
      rw [abs_of_pos h0]; linarith

/-- Rounding once more. -/
theorem Lim.step {x : Fl} {v ε : ℝ} (h : Lim x v ε) (g : Fl → Fl) (hg : ∀ y, g (fin y) = rnd y) (hp : g pinf = pinf) (hn : g ninf = ninf) : Lim (g x) v (ε + 2 / 1000000) := by
  obtain ⟨h1, h2⟩ := h
  have h0 := h2.nonneg
  cases x with
  | nan => exact absurd rfl h1
  | pinf => rw [hp]; exact ⟨h1, h2.weaken (by linarith)⟩
  | ninf => rw [hn]; exact ⟨h1, h2.weaken (by linarith)⟩
  | fin y =>
    rw [hg]
    obtain ⟨a, z, e, hz⟩ := lim_rnd y
    refine ⟨a, z, e, ?_⟩
    obtain ⟨z', e', hz'⟩ := h2
    rw [clamp_fin, fin_inj] at e'
    subst e'
    have := abs_sub_le z (limit y) (limit v)
    linarith

/-- One channel of opaque colours. -/
theorem opaque_channel {x : Fl} {v ε a b : ℝ} (h : Lim x v ε) (us ud : Bool) :
    Near (Color.clamp (fin 1 * (1 - fin 1) * (if us then fin a else 0) + fin 1 * (1 - fin 1) * (if ud then fin b else 0) + fin 1 * fin 1 * x) 1 0 / fin 1) (limit v) (ε + 6 / 1000000) := by
  have r1 : rnd (1 : ℝ) = fin 1 := by simpa using IntExact.rnd_int 1 (by norm_num)
  have z1 : fin 1 * (1 - fin 1 : Fl) = fin 0 := by rw [one_def, fin_sub, sub_self, FloatModel.rnd_zero, fin_mul, mul_zero, FloatModel.rnd_zero]
  have z2 : ∀ (b : Bool) (y : ℝ), fin 0 * (if b then fin y else 0) = fin 0 := by
    intro b y; cases b <;> simp [fin_mul, FloatModel.rnd_zero]
  have o1 : fin 1 * fin 1 = fin 1 := by rw [fin_mul, one_mul, r1]
  have z3 : fin 0 + fin 0 = fin 0 := by rw [fin_add, add_zero, FloatModel.rnd_zero]
  rw [z1, z2, z2, z3, o1]
  have h1 := h.step (fun y => fin 1 * y) (fun y => by rw [fin_mul, one_mul]) (by show Fl.mul _ _ = _; simp [Fl.mul, infOf]) (by show Fl.mul _ _ = _; simp [Fl.mul, infOf])
  have h2 := h1.step (fun y => fin 0 + y) (fun y => by rw [fin_add, zero_add]) rfl rfl
  obtain ⟨-, z, e, hz⟩ := h2
  rw [e, fin_div _ _ one_ne_zero, div_one]
  have hl : 0 ≤ limit v ∧ limit v ≤ 1 := ⟨le_max_left _ _, max_le zero_le_one (min_le_left _ _)⟩
  have hzr : 0 ≤ z ∧ z ≤ 1 := by
    cases hx : fin 0 + fin 1 * x with
    | nan => rw [hx] at e; simp [Color.clamp, fmin, fmax, one_def, zero_def] at e; subst e; norm_num
    | pinf => rw [hx] at e; simp [Color.clamp, fmin, fmax, one_def, zero_def] at e; subst e; norm_num
    | ninf => rw [hx] at e; simp [Color.clamp, fmin, fmax, one_def, zero_def] at e; subst e; norm_num
    | fin y =>
      rw [hx, clamp_fin, fin_inj] at e
      subst e
      exact ⟨le_max_left _ _, max_le zero_le_one (min_le_left _ _)⟩
  obtain ⟨t, ht, ht'⟩ := near_rnd (r := z) (by rw [abs_of_nonneg hzr.1]; linarith [hzr.2])
  refine ⟨t, ht, ?_⟩
  rw [abs_of_nonneg hzr.1] at ht'
  have := abs_sub_le t z (limit v)
  linarith [hzr.2]

/-- The function of the both region, all modes but one. -/
theorem mode_lim (m : Mode) (hf : m.Finite) (hm : m ≠ .vivid_light) (sc dc : Color) (hδ : sc.alpha - dc.alpha = fin 0) (i : Nat) {s d : ℝ} (s0 : 0 ≤ s) (s1 : s ≤ 1) (d0 : 0 ≤ d)
    (d1 : d ≤ 1) (ha : m.Apart s d) : Lim (modeF m sc dc i (fin s) (fin d)) (m.formula 0 i s d) (25 / 1000000) := by
  by_cases hb : m.Bounded
  · exact lim_of_near (mode_near m hb sc dc 0 i s0 s1 d0 d1 ha)
  have half : (0.5 : ℝ) = 1 / 2 := by norm_num
  have as : |s| ≤ 1 := by rw [abs_of_nonneg s0]; exact s1
  have ad : |d| ≤ 1 := by rw [abs_of_nonneg d0]; exact d1
  have ns := n_fin s
  have nd := n_fin d
  cases m <;> first | exact absurd trivial hb | skip
  all_goals simp only [Mode.formula, modeF]
  case linear_dodge => exact lim_of_near ((n_add ns nd (abs_le.mpr ⟨by linarith, by linarith⟩) (by norm_num)).weaken (by norm_num))
  case linear_burn =>
    have h1 := n_add nd ns (abs_le.mpr ⟨by linarith, by linarith⟩) (by norm_num)
    have h2 := n_sub h1 n_one (abs_le.mpr ⟨by linarith, by linarith⟩) (by norm_num)
    rw [add_comm s d]
    exact lim_of_near (h2.weaken (by norm_num))
  case vivid_light => exact absurd rfl hm
  case linear_light =>
    unfold ColorBlend.linear_light_func
    simp only [fin_le, half]
    split_ifs with h
    · have h1 := n_mul2 n_two ns (by norm_num) as (by norm_num) (by norm_num)
      have h2 := n_add nd h1 (abs_le.mpr ⟨by linarith, by linarith⟩) (by norm_num)
      have h3 := n_sub h2 n_one (abs_le.mpr ⟨by linarith, by linarith⟩) (by norm_num)
      exact lim_of_near (h3.weaken (by norm_num))
    · have h := not_le.mp h
      have h1 := n_sub ns (n_fin (1 / 2)) (abs_le.mpr ⟨by linarith, by linarith⟩) (by norm_num)
      have h2 := n_mul2 n_two h1 (by norm_num) (abs_le.mpr ⟨by linarith, by linarith⟩) (by norm_num) (by norm_num)
      have h3 := n_add nd h2 (abs_le.mpr ⟨by linarith, by linarith⟩) (by norm_num)
      rw [show d + (2 * s - 1) = d + 2 * (s - 1 / 2) by ring]
      exact lim_of_near (h3.weaken (by norm_num))
  case hard_mix =>
    have ha : 1 / 500000 < |s + d - 1| := ha
    unfold ColorBlend.hard_mix_func
    obtain ⟨y', e', hy'⟩ := near_rnd (r := 1 - d) (abs_le.mpr ⟨by linarith, by linarith⟩)
    rw [one_def, fin_sub, e']
    simp only [fin_lt, zero_def]
    rw [abs_of_nonneg (show 0 ≤ 1 - d by linarith)] at hy'
    have hy2 := abs_le.mp hy'
    by_cases h : s + d < 1
    · rw [abs_of_neg (by linarith)] at ha
      rw [if_pos (by linarith), if_pos h]
      exact lim_of_near ((near_fin 0).weaken (by norm_num))
    · rw [abs_of_nonneg (by linarith)] at ha
      rw [if_neg (by linarith), if_neg h]
      exact lim_of_near ((near_fin 1).weaken (by norm_num))
  case subtract => exact lim_of_near ((n_sub ns nd (abs_le.mpr ⟨by linarith, by linarith⟩) (by norm_num)).weaken (by norm_num))
  case divide =>
    simp only [ColorBlend.divide_func, zero_def, one_def, feq_fin]
    split_ifs with h1 h2
    · exact lim_of_near ((near_fin 0).weaken (by norm_num))
    · exact lim_of_near ((near_fin 1).weaken (by norm_num))
    · rw [fin_div _ _ h2]
      exact (lim_rnd _).weaken (by norm_num)
  case plus_lighter => exact lim_of_near ((n_add ns nd (abs_le.mpr ⟨by linarith, by linarith⟩) (by norm_num)).weaken (by norm_num))
  case plus_darker =>
    have h1 := n_add ns nd (abs_le.mpr ⟨by linarith, by linarith⟩) (by norm_num)
    have h2 := n_sub h1 n_one (abs_le.mpr ⟨by linarith, by linarith⟩) (by norm_num)
    exact lim_of_near (h2.weaken (by norm_num))
  case dissolve rand =>
    simp only [ColorBlend.dissolve_func, hδ]
    have e : ((OfNat.ofNat 25 : ℝ) ≤ ((rand i % 101 : ℕ) : ℝ)) ↔ 25 ≤ rand i % 101 := by
      rw [show (OfNat.ofNat 25 : ℝ) = ((25 : ℕ) : ℝ) by norm_num]; exact Nat.cast_le
    simp only [gt_iff_lt, ge_iff_le, zero_def, lit_def, fin_lt, fin_le, lt_irrefl, false_and, le_refl, true_and, false_or, if_false, e]
    by_cases h : 25 ≤ rand i % 101
    · rw [if_pos h, if_neg (by omega)]
      exact lim_of_near ((near_fin d).weaken (by norm_num))
    · rw [if_neg h, if_pos (by omega)]
      exact lim_of_near ((near_fin s).weaken (by norm_num))
  case custom f =>
    obtain ⟨r, hr⟩ := hf s d
    simp only [hr]
    exact lim_of_near ((near_fin r).weaken (by norm_num))

/-- The blend of opaque colours, given the function of the both region. -/
theorem opaque_gives (m : Mode) (w : World) (us ud : Bool) (s d : Color) (s0 s1 s2 d0 d1 d2 : ℝ) (hs : IsPixel s s0 s1 s2 1) (hd : IsPixel d d0 d1 d2 1) (hsp : s.space = d.space)
    {v0 v1 v2 : ℝ} (l0 : Lim (modeF m s d 0 (fin s0) (fin d0)) v0 (25 / 1000000)) (l1 : Lim (modeF m s d 1 (fin s1) (fin d1)) v1 (25 / 1000000))
    (l2 : Lim (modeF m s d 2 (fin s2) (fin d2)) v2 (25 / 1000000)) :
    ∃ r0 r1 r2, Yields (m.run us ud) w s d (obj .rgbDeep r0 r1 r2 (fin 1) s.space) ∧ |r0 - limit v0| ≤ 1 / 25000 ∧ |r1 - limit v1| ≤ 1 / 25000 ∧ |r2 - limit v2| ≤ 1 / 25000 := by
  have r1' : rnd (1 : ℝ) = fin 1 := by simpa using IntExact.rnd_int 1 (by norm_num)
  have c0 := Blend.opaque_channel (a := s0) (b := d0) l0 us ud
  have c1 := Blend.opaque_channel (a := s1) (b := d1) l1 us ud
  have c2 := Blend.opaque_channel (a := s2) (b := d2) l2 us ud
  obtain ⟨t0, e0, n0⟩ := c0
  obtain ⟨t1, e1, n1⟩ := c1
  obtain ⟨t2, e2, n2⟩ := c2
  refine ⟨t0, t1, t2, ?_, n0.trans (by norm_num), n1.trans (by norm_num), n2.trans (by norm_num)⟩
  rw [Blend.mode_eq]
  refine Blend.operator_rgb (f := Blend.modeF m) (w := w) hs.rgb.col hd.rgb.col hsp ?_
  have z1 : fin 1 * (1 - fin 1 : Fl) = fin 0 := by rw [one_def, fin_sub, sub_self, FloatModel.rnd_zero, fin_mul, mul_zero, FloatModel.rnd_zero]
  have z2 : ∀ (b : Bool), fin 0 * (if b then (1 : Fl) else 0) = fin 0 := by
    intro b; cases b <;> simp [fin_mul, FloatModel.rnd_zero]
  have o1 : fin 1 * fin 1 = fin 1 := by rw [fin_mul, one_mul, r1']
  have z3 : fin 0 + fin 0 = fin 0 := by rw [fin_add, add_zero, FloatModel.rnd_zero]
  have al : fin 1 * (1 - fin 1) * (if us then 1 else 0) + fin 1 * (1 - fin 1) * (if ud then 1 else 0) + fin 1 * fin 1 * (if true then 1 else 0) = fin 1 := by
    rw [z1, z2, z2, z3, o1, if_pos rfl, one_def, o1, fin_add, zero_add, r1']
  generalize Blend.modeF m s d = F at *
  rw [hs.eq, hd.eq]
  have := Blend.gpd_result (fin s0) (fin s1) (fin s2) (fin 1) (fin d0) (fin d1) (fin d2) (fin 1) us ud true F s.space d.space
  have hobj : ∀ (x y z : ℝ) (sp : Option Nat), obj .rgbDeep x y z (fin 1) sp = ⟨.rgbDeep, .rgbDeep, [fin x, fin y, fin z], fin 1, 1, 0, sp⟩ := fun _ _ _ _ => rfl
  rw [hobj, hobj, this, Blend.result, al]
  unfold Color.alphaDivide
  rw [if_neg (by simp)]
  simp only [List.map_cons, List.map_nil]
  rw [e0, e1, e2]
  rfl

end Blend

/-- C133 for opaque colours, whichever regions are used, all modes but vivid_light: the channels are those of the formula limited to 0..1 up to 1 / 25000, alpha is exactly 1.
A custom formula may be any function. -/
theorem C133_opaque_partial [IntExact] (m : Mode) (hf : m.Finite) (hm : m ≠ .vivid_light) (w : World) (us ud : Bool) (s d : Color) (s0 s1 s2 d0 d1 d2 : ℝ) (hs : IsPixel s s0 s1 s2 1)
    (hd : IsPixel d d0 d1 d2 1) (hsp : s.space = d.space) (a0 : m.Apart s0 d0) (a1 : m.Apart s1 d1) (a2 : m.Apart s2 d2) :
    ∃ r0 r1 r2, Yields (m.run us ud) w s d (obj .rgbDeep r0 r1 r2 (fin 1) s.space) ∧
      |r0 - limit (m.formula 0 0 s0 d0)| ≤ 1 / 25000 ∧ |r1 - limit (m.formula 0 1 s1 d1)| ≤ 1 / 25000 ∧ |r2 - limit (m.formula 0 2 s2 d2)| ≤ 1 / 25000 := by
  have hδ : s.alpha - d.alpha = fin 0 := by
    have h1 : s.alpha = fin 1 := by rw [hs.eq, obj_alpha _ _ _ _ _ _ rfl]
    have h2 : d.alpha = fin 1 := by rw [hd.eq, obj_alpha _ _ _ _ _ _ rfl]
    rw [h1, h2, fin_sub, sub_self, FloatModel.rnd_zero]
  exact Blend.opaque_gives m w us ud s d s0 s1 s2 d0 d1 d2 hs hd hsp (Blend.mode_lim m hf hm s d hδ 0 hs.rgb.r0 hs.rgb.r1 hd.rgb.r0 hd.rgb.r1 a0)
    (Blend.mode_lim m hf hm s d hδ 1 hs.rgb.g0 hs.rgb.g1 hd.rgb.g0 hd.rgb.g1 a1) (Blend.mode_lim m hf hm s d hδ 2 hs.rgb.b0 hs.rgb.b1 hd.rgb.b0 hd.rgb.b1 a2)

end

/-- Case: in single precision, an opaque grey divided by a much darker one is white; dissolve picks a channel. -/
example (w : World) : letI := Binary32.binary32
    ∃ r0 r1 r2, Yields (ColorBlend.divide true true) w (obj .rgbDeep 0.5 (1 / 2 ^ 140) 1 (fin 1) none) (obj .rgbDeep 0.25 1 0.75 (fin 1) none) (obj .rgbDeep r0 r1 r2 (fin 1) none) ∧
      |r0 - 0.5| ≤ 1 / 25000 ∧ |r1 - 1| ≤ 1 / 25000 ∧ |r2 - 0.75| ≤ 1 / 25000 := by
  letI := Binary32.binary32
  haveI := Binary32.binary32_small
  haveI := Binary32.binary32_int
  obtain ⟨r0, r1, r2, h1, h2, h3, h4⟩ := C133_opaque_partial .divide trivial (by simp) w true true _ _ 0.5 (1 / 2 ^ 140) 1 0.25 1 0.75
    (isPixel_obj none (by norm_num) (by norm_num) (by norm_num) (by norm_num)) (isPixel_obj none (by norm_num) (by norm_num) (by norm_num) (by norm_num)) rfl
    trivial trivial trivial
  norm_num [Mode.formula, limit] at h2 h3 h4
  exact ⟨r0, r1, r2, h1, by norm_num; exact h2, h3, by norm_num; exact h4⟩

/-- Case: in single precision, color_dodge of half-transparent greys; 0.6 / (1 - 0.5) is limited to 1. -/
example (w : World) : letI := Binary32.binary32
    ∃ r0 r1 r2 ra, Yields (ColorBlend.color_dodge true true) w (obj .rgbDeep 0.5 0.5 0.5 (fin 0.5) none) (obj .rgbDeep 0.6 0.3 0 (fin 0.5) none) (obj .rgbDeep r0 r1 r2 (fin ra) none) ∧
      |r0 - 0.7| ≤ 1 / 25000 ∧ |r1 - 7 / 15| ≤ 1 / 25000 ∧ |r2 - 1 / 6| ≤ 1 / 25000 := by
  letI := Binary32.binary32
  haveI := Binary32.binary32_small
  obtain ⟨r0, r1, r2, ra, h1, -, h2, h3, h4⟩ := C133_translucent_partial .color_dodge trivial w _ _ 0.5 0.5 0.5 0.5 0.6 0.3 0 0.5
    (isPixel_obj none (by norm_num) (by norm_num) (by norm_num) (by norm_num)) (isPixel_obj none (by norm_num) (by norm_num) (by norm_num) (by norm_num)) rfl
    (Or.inr (by norm_num)) (Or.inr (by norm_num)) (Or.inr (by norm_num)) _ rfl (Or.inr (by norm_num)) 0.7 (7 / 15) (1 / 6)
    ⟨by norm_num [Mode.formula], by norm_num⟩ ⟨by norm_num [Mode.formula], by norm_num⟩ ⟨by norm_num [Mode.formula], by norm_num⟩
  exact ⟨r0, r1, r2, ra, h1, h2, h3, h4⟩
