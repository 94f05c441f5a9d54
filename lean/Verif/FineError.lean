import Verif.NearLemmas
import Verif.Binary32
import Mathlib.Analysis.SpecialFunctions.Pow.Real
import Mathlib.Tactic.Linarith

/-!
# Arithmetic with the precision of `float`

`FineError` bounds the error of one operation by one unit in the last place of a 24-bit significand, whatever the rounding mode, and the error of `powf` by two such units.
It holds of the exact arithmetic and of binary32.
-/

open Fl

/-- Every operation is accurate to one part in 2^23, `powf` to two. -/
class FineError [FloatModel] : Prop where
  rnd_near : ∀ r : ℝ, |r| ≤ 2 ^ 100 → ∃ r', rnd r = .fin r' ∧ |r' - r| ≤ |r| / 2 ^ 23 + 1 / 2 ^ 100
  powf_near : ∀ x y : ℝ, 0 < x → x ≤ 2 → 0 < y → y ≤ 4 → ∃ r', powf (.fin x) (.fin y) = .fin r' ∧ |r' - x ^ y| ≤ x ^ y / 2 ^ 22 + 1 / 2 ^ 100

instance [FloatModel] [ExactModel] : FineError where
  rnd_near r _ := ⟨r, ExactModel.rnd_eq _, by rw [sub_self, abs_zero]; positivity⟩
  powf_near x y h _ _ _ := ⟨x ^ y, ExactModel.powf_eq _ _ (Or.inl h), by rw [sub_self, abs_zero]; positivity⟩

instance [FloatModel] [FineError] : SmallError where
  rnd_near r hr := by
    obtain ⟨r', h1, h2⟩ := FineError.rnd_near r hr
    refine ⟨r', h1, h2.trans ?_⟩
    gcongr <;> norm_num

namespace Binary32

theorem round_fine {r : ℝ} (hr : |r| ≤ 2 ^ 100) : ∃ r', round32 r = .fin r' ∧ |r' - r| ≤ |r| / 2 ^ 23 + 1 / 2 ^ 100 := by
  have h1 := value_error r
  have h2 : |value r - r| ≤ |r| / 2 ^ 23 + 1 / 2 ^ 100 := by
    refine h1.trans ?_
    gcongr <;> norm_num
  have h3 : |value r| < 2 ^ 128 := by
    have : |value r| ≤ |value r - r| + |r| := by
      have := abs_add_le (value r - r) r; simpa using this
    have h4 : |r| / 2 ^ 24 ≤ 2 ^ 100 / 2 ^ 24 := by gcongr
    refine lt_of_le_of_lt this ?_
    norm_num at *
    linarith
  rw [abs_lt] at h3
  refine ⟨value r, ?_, h2⟩
  unfold round32
  rw [if_neg (not_le.mpr h3.2), if_neg (not_le.mpr h3.1)]

theorem binary32_fine : @FineError binary32 :=
  letI := binary32
  { rnd_near := fun r hr => round_fine hr
    powf_near := fun x y hx hx2 hy hy4 => by
      have hp : 0 < x ^ y := Real.rpow_pos_of_pos hx y
      have hb : x ^ y ≤ 2 ^ (4 : ℝ) := by
        rcases le_total x 1 with h | h
        · exact (Real.rpow_le_one hx.le h hy.le).trans (by norm_num)
        · exact (Real.rpow_le_rpow hx.le hx2 hy.le).trans (Real.rpow_le_rpow_of_exponent_le (by norm_num) hy4)
      have hb' : |x ^ y| ≤ 2 ^ 100 := by
        rw [abs_of_pos hp]
        refine hb.trans ?_
        norm_num
      obtain ⟨r', h1, h2⟩ := round_fine hb'
      rw [abs_of_pos hp] at h2
      refine ⟨r', ?_, h2.trans ?_⟩
      · exact (if_pos (Or.inl hx)).trans h1
      · gcongr <;> norm_num }

end Binary32

namespace Fl

/-- `x` is a number that differs from `a` by at most `k` units, a unit being 1.2e-7 times the magnitude `B` (which is at least that of `a`). -/
structure Appr (x : Fl) (a B k : ℝ) : Prop where
  near : Near x a (k * B * 1.2e-7)
  le : |a| ≤ B
  k0 : 0 ≤ k

theorem Appr.B0 {x : Fl} {a B k : ℝ} (h : Appr x a B k) : 0 ≤ B := (abs_nonneg a).trans h.le

theorem Appr.exact {a B : ℝ} (h : |a| ≤ B) : Appr (fin a) a B 0 := ⟨by simpa using near_fin a, h, le_rfl⟩

theorem Appr.weaken {x : Fl} {a B C k l : ℝ} (h : Appr x a B k) (hB : B ≤ C) (hk : k ≤ l) : Appr x a C l := by
  have := h.B0; have := h.k0
  have : 0 ≤ l := this.trans hk
  exact ⟨h.near.weaken (by gcongr), h.le.trans hB, by linarith⟩

theorem Appr.num {x : Fl} {a B k : ℝ} (h : Appr x a B k) : ∃ y, x = fin y ∧ |y - a| ≤ k * B * 1.2e-7 := h.near

variable [FloatModel] [FineError]

/-- Rounding a number that is itself an approximation. -/
theorem appr_rnd {s a B k : ℝ} (h : |s - a| ≤ k * B * 1.2e-7) (ha : |a| ≤ B) (hk : 0 ≤ k) (hk1 : k ≤ 2500) (hB : 1e-20 ≤ B) (hB1 : B ≤ 1000) :
    Appr (rnd s) a B (k + 1) := by
  have hs : |s| ≤ B + k * B * 1.2e-7 := by
    have := abs_add_le (s - a) a; rw [sub_add_cancel] at this; linarith
  have hkb : k * B ≤ 2500 * B := by gcongr
  obtain ⟨y, h1, h2⟩ := FineError.rnd_near s (hs.trans (by norm_num at *; linarith))
  refine ⟨⟨y, h1, ?_⟩, ha, by linarith⟩
  have h3 := abs_sub_le y s a
  have h4 : |s| / 2 ^ 23 ≤ (B + k * B * 1.2e-7) / 2 ^ 23 := by gcongr
  norm_num at *
  linarith

theorem Appr.add {x y : Fl} {a b A B k l : ℝ} (hx : Appr x a A k) (hy : Appr y b B l) (m : ℝ) (h1 : k ≤ m) (h2 : l ≤ m) (hm : m ≤ 2500) (hl : 1e-20 ≤ A + B)
    (hu : A + B ≤ 1000) : Appr (x + y) (a + b) (A + B) (m + 1) := by
  have hA := hx.B0; have hB := hy.B0; have hk := hx.k0; have hl' := hy.k0
  obtain ⟨u, rfl, ea⟩ := hx.near; obtain ⟨v, rfl, eb⟩ := hy.near
  rw [fin_add]
  refine appr_rnd ?_ ((abs_add_le _ _).trans (add_le_add hx.le hy.le)) (by linarith) hm hl hu
  rw [show u + v - (a + b) = (u - a) + (v - b) by ring]
  refine (abs_add_le _ _).trans ((add_le_add ea eb).trans ?_)
  have : k * A ≤ m * A := by gcongr
  have : l * B ≤ m * B := by gcongr
  norm_num at *
  linarith

theorem Appr.sub {x y : Fl} {a b A B k l : ℝ} (hx : Appr x a A k) (hy : Appr y b B l) (m : ℝ) (h1 : k ≤ m) (h2 : l ≤ m) (hm : m ≤ 2500) (hl : 1e-20 ≤ A + B)
    (hu : A + B ≤ 1000) : Appr (x - y) (a - b) (A + B) (m + 1) := by
  have hA := hx.B0; have hB := hy.B0; have hk := hx.k0; have hl' := hy.k0
  obtain ⟨u, rfl, ea⟩ := hx.near; obtain ⟨v, rfl, eb⟩ := hy.near
  rw [fin_sub]
  refine appr_rnd ?_ ((abs_sub _ _).trans (add_le_add hx.le hy.le)) (by linarith) hm hl hu
  rw [show u - v - (a - b) = (u - a) - (v - b) by ring]
  refine (abs_sub _ _).trans ((add_le_add ea eb).trans ?_)
  have : k * A ≤ m * A := by gcongr
  have : l * B ≤ m * B := by gcongr
  norm_num at *
  linarith

theorem Appr.mul {x y : Fl} {a b A B k l : ℝ} (hx : Appr x a A k) (hy : Appr y b B l) (h1 : k ≤ 1000) (h2 : l ≤ 1000) (hl : 1e-20 ≤ A * B)
    (hu : A * B ≤ 1000) : Appr (x * y) (a * b) (A * B) (k + l + 1.2) := by
  have hA := hx.B0; have hB := hy.B0; have hk := hx.k0; have hl' := hy.k0
  obtain ⟨u, rfl, ea⟩ := hx.near; obtain ⟨v, rfl, eb⟩ := hy.near
  rw [fin_mul]
  have key : Appr (rnd (u * v)) (a * b) (A * B) ((k + l + 0.2) + 1) := by
    refine appr_rnd ?_ (by rw [abs_mul]; exact mul_le_mul hx.le hy.le (abs_nonneg _) hA) (by linarith) (by linarith) hl hu
    rw [show u * v - a * b = a * (v - b) + b * (u - a) + (u - a) * (v - b) by ring]
    have e1 : |a * (v - b)| ≤ A * (l * B * 1.2e-7) := by rw [abs_mul]; exact mul_le_mul hx.le eb (abs_nonneg _) hA
    have e2 : |b * (u - a)| ≤ B * (k * A * 1.2e-7) := by rw [abs_mul]; exact mul_le_mul hy.le ea (abs_nonneg _) hB
    have e3 : |(u - a) * (v - b)| ≤ (k * A * 1.2e-7) * (l * B * 1.2e-7) := by rw [abs_mul]; exact mul_le_mul ea eb (abs_nonneg _) (by positivity)
    refine (abs_add_le _ _).trans ((add_le_add ((abs_add_le _ _).trans (add_le_add e1 e2)) e3).trans ?_)
    have hkl : k * l ≤ 1000 * 1000 := by gcongr
    have : (k * l) * (A * B) ≤ (1000 * 1000) * (A * B) := by gcongr
    norm_num at *
    nlinarith
  convert key using 1; norm_num; ring

/-- Division, the magnitude of the divisor being at least `β`. -/
theorem Appr.div {x y : Fl} {a b A B k l : ℝ} (hx : Appr x a A k) (hy : Appr y b B l) (β κ : ℝ) (hβ : 0 < β) (hb : β ≤ |b|) (hκ : B ≤ κ * β) (h1 : k + l * κ ≤ 1000)
    (hl : 1e-20 ≤ A / β) (hu : A / β ≤ 1000) : Appr (x / y) (a / b) (A / β) (k + l * κ + 1.2) := by
  have hA := hx.B0; have hB := hy.B0; have hk := hx.k0; have hl' := hy.k0
  have hκ0 : 0 ≤ κ := by
    by_contra h
    push Not at h
    have : κ * β < 0 := mul_neg_of_neg_of_pos h hβ
    linarith
  obtain ⟨u, rfl, ea⟩ := hx.near; obtain ⟨v, rfl, eb⟩ := hy.near
  have hlκ : l * B ≤ (l * κ) * β := by
    calc l * B ≤ l * (κ * β) := by gcongr
      _ = _ := by ring
  have hlκ1 : l * κ ≤ 1000 := by linarith
  have hlκ0 : 0 ≤ l * κ := by positivity
  have hvb : |v - b| ≤ (l * κ) * β * 1.2e-7 := eb.trans (by gcongr)
  have hv : β * (1 - l * κ * 1.2e-7) ≤ |v| := by
    have := abs_sub_abs_le_abs_sub b v; rw [abs_sub_comm] at this; nlinarith
  have hpos : 0 < 1 - l * κ * 1.2e-7 := by norm_num at *; linarith
  have hv0 : 0 < |v| := lt_of_lt_of_le (by positivity) hv
  have hvne : v ≠ 0 := abs_pos.mp hv0
  have hbne : b ≠ 0 := abs_pos.mp (lt_of_lt_of_le hβ hb)
  have hq : |a / b| ≤ A / β := by rw [abs_div]; exact div_le_div₀ hA hx.le hβ hb
  have key : Appr (rnd (u / v)) (a / b) (A / β) ((k + l * κ + 0.2) + 1) := by
    refine appr_rnd ?_ hq (by positivity) (by linarith) hl hu
    have e : u / v - a / b = ((u - a) - (a / b) * (v - b)) / v := by field_simp; ring
    rw [e, abs_div, div_le_iff₀ hv0]
    have e2 : |(u - a) - (a / b) * (v - b)| ≤ k * A * 1.2e-7 + A / β * ((l * κ) * β * 1.2e-7) := by
      refine (abs_sub _ _).trans (add_le_add ea ?_)
      rw [abs_mul]
      exact mul_le_mul hq hvb (abs_nonneg _) (by positivity)
    refine e2.trans ?_
    have e3 : A / β * ((l * κ) * β * 1.2e-7) = A * (l * κ) * 1.2e-7 := by field_simp
    rw [e3]
    have e4 : (k + l * κ + 0.2) * (A / β) * 1.2e-7 * (β * (1 - l * κ * 1.2e-7)) ≤ (k + l * κ + 0.2) * (A / β) * 1.2e-7 * |v| := by gcongr
    refine le_trans ?_ e4
    have e5 : (k + l * κ + 0.2) * (A / β) * 1.2e-7 * (β * (1 - l * κ * 1.2e-7)) = A * 1.2e-7 * ((k + l * κ + 0.2) * (1 - l * κ * 1.2e-7)) := by field_simp
    rw [e5, show k * A * 1.2e-7 + A * (l * κ) * 1.2e-7 = A * 1.2e-7 * (k + l * κ) by ring]
    gcongr
    have : (k + l * κ + 0.2) * (l * κ) ≤ 1000.2 * 1000 := by
      apply mul_le_mul _ hlκ1 hlκ0 (by norm_num)
      linarith
    norm_num at *
    nlinarith
  rw [fin_div _ _ hvne]
  convert key using 1; norm_num; ring

theorem Appr.zero_add {x : Fl} {a A k : ℝ} (hx : Appr x a A k) (h1 : k ≤ 1000) (hl : 1e-20 ≤ A) (hu : A ≤ 1000) : Appr (0 + x) a A (k + 1) := by
  obtain ⟨u, rfl, ea⟩ := hx.near
  rw [zero_def, fin_add, _root_.zero_add]
  exact appr_rnd ea hx.le hx.k0 (by linarith) hl hu

theorem Appr.one_mul {x : Fl} {a A k : ℝ} (hx : Appr x a A k) (h1 : k ≤ 1000) (hl : 1e-20 ≤ A) (hu : A ≤ 1000) : Appr (1 * x) a A (k + 1) := by
  obtain ⟨u, rfl, ea⟩ := hx.near
  rw [one_def, fin_mul, _root_.one_mul]
  exact appr_rnd ea hx.le hx.k0 (by linarith) hl hu

theorem Appr.neg_mul {x : Fl} {a A k : ℝ} (hx : Appr x a A k) (h1 : k ≤ 1000) (hl : 1e-20 ≤ A) (hu : A ≤ 1000) : Appr (fin (-1) * x) (-a) A (k + 1) := by
  obtain ⟨u, rfl, ea⟩ := hx.near
  rw [fin_mul, neg_one_mul]
  refine appr_rnd ?_ (by rw [abs_neg]; exact hx.le) hx.k0 (by linarith) hl hu
  rw [show -u - -a = -(u - a) by ring, abs_neg]
  exact ea

theorem Appr.lit {r B : ℝ} (h : |r| ≤ B) (hl : 1e-20 ≤ B) (hu : B ≤ 1000) : Appr (lit r) r B 1 := by
  have : Appr (rnd r) r B (0 + 1) := appr_rnd (by simp) h le_rfl (by norm_num) hl hu
  simpa [Fl.lit] using this

end Fl
