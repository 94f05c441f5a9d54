import Verif.Float
import Mathlib.Tactic.NormNum
import Mathlib.Tactic.Linarith

/-!
# Arithmetic with a small rounding error

`SmallError` holds of the exact arithmetic and of every binary format with at least 21 significant bits and an exponent range like that of `float`.
-/

/-- Values of moderate size are rounded with a relative error of at most `2^-20` and an absolute error of at most `2^-100` near zero. -/
class SmallError [FloatModel] : Prop where
  rnd_near : ∀ r : ℝ, |r| ≤ 2 ^ 100 → ∃ r', rnd r = .fin r' ∧ |r' - r| ≤ |r| / 2 ^ 20 + 1 / 2 ^ 100

instance [FloatModel] [ExactModel] : SmallError := ⟨fun r _ => ⟨r, ExactModel.rnd_eq _, by rw [sub_self, abs_zero]; positivity⟩⟩

namespace Fl
variable [FloatModel] [SmallError]

/-- Simplified error bound for values up to 1000. -/
theorem near (r : ℝ) (h : |r| ≤ 1000) : ∃ r', rnd r = .fin r' ∧ |r' - r| ≤ |r| * (1 / 1000000) + 1 / 1000000 := by
  obtain ⟨r', h1, h2⟩ := SmallError.rnd_near r (h.trans (by norm_num))
  refine ⟨r', h1, h2.trans ?_⟩
  have : |r| / 2 ^ 20 ≤ |r| * (1 / 1000000) := by
    rw [div_eq_mul_inv]; exact mul_le_mul_of_nonneg_left (by norm_num) (abs_nonneg r)
  have : (1 : ℝ) / 2 ^ 100 ≤ 1 / 1000000 := by norm_num
  linarith

omit [FloatModel] [SmallError] in
theorem roundR_near {n : ℕ} {x : ℝ} (h : |x - n| < 1 / 2) : roundR x = n := by
  rw [abs_lt] at h
  have hn : (0 : ℝ) ≤ n := Nat.cast_nonneg n
  unfold roundR
  split
  · rw [Int.floor_eq_iff]; push_cast; constructor <;> linarith
  · rename_i h0
    have h1 : n < 1 := by
      have : (n : ℝ) < 1 := by linarith
      exact_mod_cast this
    have : n = 0 := by omega
    subst this
    rw [Int.ceil_eq_iff]; push_cast at *; constructor <;> linarith

end Fl
