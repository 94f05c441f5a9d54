import Verif.Float

/-!
# Propagation of NaN
-/

namespace Fl
variable [FloatModel]

@[simp] theorem nan_add (x : Fl) : nan + x = nan := rfl
@[simp] theorem add_nan (x : Fl) : x + nan = nan := by cases x <;> rfl
@[simp] theorem nan_sub (x : Fl) : nan - x = nan := rfl
@[simp] theorem sub_nan (x : Fl) : x - nan = nan := by cases x <;> rfl
@[simp] theorem nan_mul (x : Fl) : nan * x = nan := rfl
@[simp] theorem mul_nan (x : Fl) : x * nan = nan := by cases x <;> rfl
@[simp] theorem nan_div (x : Fl) : nan / x = nan := rfl
@[simp] theorem div_nan (x : Fl) : x / nan = nan := by cases x <;> rfl
omit [FloatModel] in
@[simp] theorem infOf_zero : infOf 0 = nan := by simp [infOf]
@[simp] theorem zero_div_zero : fin 0 / fin 0 = nan := by rw [fin_div_zero, infOf_zero]

end Fl
