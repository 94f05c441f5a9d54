import Mathlib.Data.Real.Basic
import Mathlib.Analysis.Real.Sqrt
import Mathlib.Algebra.Order.Floor.Ring
import Mathlib.Analysis.SpecialFunctions.Pow.Real
import Mathlib.Analysis.SpecialFunctions.Log.Base
import Mathlib.Analysis.SpecialFunctions.Trigonometric.Basic
import Mathlib.Analysis.SpecialFunctions.Complex.Arg
import Mathlib.Tactic.Linarith
import Mathlib.Tactic.NormNum

/-!
# The C++ `float` type

Not a part of the repository but the language layer every file in /repo/ColorMagic computes with.

`Fl` has NaN, the two infinities and finite values.  Arithmetic computes the exact real result and hands
it to the rounding function `FloatModel.rnd`; the only facts assumed of `rnd` are that it is monotone (IEEE 754
rounding is, in every rounding mode) and keeps zero.  The library functions `powf`, `sinf`, `cosf`, `atan2f`, `expf` are
arbitrary functions.  A theorem that only needs `[FloatModel]` holds for every such arithmetic.

Simplifications: one zero (no `-0.f`); a non-zero value divided by zero is the infinity with the sign of the dividend.
-/

/-- A C++ `float` value. -/
inductive Fl where
  | nan
  | pinf
  | ninf
  | fin (r : ℝ)

namespace Fl

instance (n : Nat) : OfNat Fl n := ⟨fin n⟩
instance : Inhabited Fl := ⟨fin 0⟩

theorem ofNat_def (n : Nat) [n.AtLeastTwo] : (OfNat.ofNat n : Fl) = fin (OfNat.ofNat n : ℝ) := rfl
@[simp] theorem zero_def : (0 : Fl) = fin 0 := by
  show fin ((0 : ℕ) : ℝ) = fin 0; simp
@[simp] theorem one_def : (1 : Fl) = fin 1 := by
  show fin ((1 : ℕ) : ℝ) = fin 1; simp
@[simp] theorem lit_def (n : Nat) [n.AtLeastTwo] : (OfNat.ofNat n : Fl) = fin (OfNat.ofNat n : ℝ) := rfl

@[simp] theorem fin_inj {a b : ℝ} : fin a = fin b ↔ a = b := by
  constructor
  · intro h; injection h
  · intro h; rw [h]

/-- C `<=` on floats: false as soon as one side is NaN. -/
def le : Fl → Fl → Prop
  | nan, _ => False
  | _, nan => False
  | ninf, _ => True
  | _, pinf => True
  | fin a, fin b => a ≤ b
  | _, _ => False

/-- C `<` on floats. -/
def lt : Fl → Fl → Prop
  | nan, _ => False
  | _, nan => False
  | ninf, ninf => False
  | ninf, _ => True
  | pinf, _ => False
  | _, pinf => True
  | fin a, fin b => a < b
  | _, _ => False

instance : LE Fl := ⟨le⟩
instance : LT Fl := ⟨lt⟩
noncomputable instance (a b : Fl) : Decidable (a ≤ b) := Classical.propDecidable _
noncomputable instance (a b : Fl) : Decidable (a < b) := Classical.propDecidable _
noncomputable instance : DecidableEq Fl := fun _ _ => Classical.propDecidable _

/-- C `==` on floats: NaN is not equal to itself. -/
def feq (a b : Fl) : Prop := a = b ∧ a ≠ nan
noncomputable instance (a b : Fl) : Decidable (feq a b) := Classical.propDecidable _

@[simp] theorem fin_le {a b : ℝ} : (fin a ≤ fin b) ↔ a ≤ b := Iff.rfl
@[simp] theorem fin_lt {a b : ℝ} : (fin a < fin b) ↔ a < b := Iff.rfl
@[simp] theorem nan_le {a : Fl} : ¬ (nan ≤ a) := by cases a <;> exact id
@[simp] theorem le_nan {a : Fl} : ¬ (a ≤ nan) := by cases a <;> exact id
@[simp] theorem nan_lt {a : Fl} : ¬ (nan < a) := by cases a <;> exact id
@[simp] theorem lt_nan {a : Fl} : ¬ (a < nan) := by cases a <;> exact id
@[simp] theorem fin_le_pinf {a : ℝ} : fin a ≤ pinf := trivial
@[simp] theorem ninf_le_fin {a : ℝ} : ninf ≤ fin a := trivial
@[simp] theorem not_pinf_le_fin {a : ℝ} : ¬ (pinf ≤ fin a) := id
@[simp] theorem not_fin_le_ninf {a : ℝ} : ¬ (fin a ≤ ninf) := id
@[simp] theorem fin_lt_pinf {a : ℝ} : fin a < pinf := trivial
@[simp] theorem ninf_lt_fin {a : ℝ} : ninf < fin a := trivial
@[simp] theorem not_pinf_lt {a : Fl} : ¬ (pinf < a) := by cases a <;> exact id
@[simp] theorem not_lt_ninf {a : Fl} : ¬ (a < ninf) := by cases a <;> exact id
@[simp] theorem ninf_le_pinf : ninf ≤ pinf := trivial
@[simp] theorem not_pinf_le_ninf : ¬ (pinf ≤ ninf) := id
@[simp] theorem pinf_le_pinf : pinf ≤ pinf := trivial
@[simp] theorem ninf_le_ninf : ninf ≤ ninf := trivial

@[simp] theorem feq_fin {a b : ℝ} : feq (fin a) (fin b) ↔ a = b := by simp [feq]
@[simp] theorem not_feq_nan {a : Fl} : ¬ feq a nan := by
  rintro ⟨h, h'⟩; exact h' h
@[simp] theorem not_nan_feq {a : Fl} : ¬ feq nan a := fun h => h.2 rfl
theorem feq_comm {a b : Fl} : feq a b ↔ feq b a := by
  constructor <;> (rintro ⟨h, h'⟩; exact ⟨h.symm, h ▸ h'⟩)

theorem le_trans' {a b c : Fl} (h : a ≤ b) (h' : b ≤ c) : a ≤ c := by
  cases a <;> cases b <;> cases c <;> simp_all
  exact h.trans h'

/-- The value is an ordinary number. -/
def IsFin (x : Fl) : Prop := ∃ r, x = fin r

@[simp] theorem isFin_fin (r : ℝ) : IsFin (fin r) := ⟨r, rfl⟩

/-- A finite value between two real bounds. -/
def InRange (lo hi : ℝ) (x : Fl) : Prop := ∃ r, x = fin r ∧ lo ≤ r ∧ r ≤ hi

@[simp] theorem inRange_fin {lo hi r : ℝ} : InRange lo hi (fin r) ↔ lo ≤ r ∧ r ≤ hi := by simp [InRange]

theorem inRange_iff {lo hi : ℝ} {x : Fl} : InRange lo hi x ↔ (fin lo ≤ x ∧ x ≤ fin hi) := by
  cases x <;> simp [InRange]

theorem InRange.mono {lo hi lo' hi' : ℝ} {x : Fl} (h : InRange lo hi x) (h1 : lo' ≤ lo) (h2 : hi ≤ hi') :
    InRange lo' hi' x := by
  obtain ⟨r, rfl, h3, h4⟩ := h
  exact ⟨r, rfl, h1.trans h3, h4.trans h2⟩

/-! ### C library functions that are exact -/

/-- `fminf`: a NaN argument is ignored. -/
noncomputable def fmin (x y : Fl) : Fl :=
  if x = nan then y else if y = nan then x else if x ≤ y then x else y

/-- `fmaxf`: a NaN argument is ignored. -/
noncomputable def fmax (x y : Fl) : Fl :=
  if x = nan then y else if y = nan then x else if y ≤ x then x else y

@[simp] theorem fmin_fin (a b : ℝ) : fmin (fin a) (fin b) = fin (min a b) := by
  unfold fmin; by_cases h : a ≤ b <;> simp [h]
  exact le_of_lt (not_le.mp h)
@[simp] theorem fmax_fin (a b : ℝ) : fmax (fin a) (fin b) = fin (max a b) := by
  unfold fmax; by_cases h : b ≤ a <;> simp [h]
  exact le_of_lt (not_le.mp h)

theorem fmin_comm (x y : Fl) : fmin x y = fmin y x := by
  cases x <;> cases y <;> simp [fmin]
  · rename_i a b
    rcases lt_trichotomy a b with h | h | h
    · simp [h.le, not_le.mpr h]
    · simp [h]
    · simp [h.le, not_le.mpr h]
theorem fmax_comm (x y : Fl) : fmax x y = fmax y x := by
  cases x <;> cases y <;> simp [fmax]
  · rename_i a b
    rcases lt_trichotomy a b with h | h | h
    · simp [h.le, not_le.mpr h]
    · simp [h]
    · simp [h.le, not_le.mpr h]

/-- `fabsf`. -/
noncomputable def abs : Fl → Fl
  | nan => nan
  | pinf => pinf
  | ninf => pinf
  | fin a => fin |a|

@[simp] theorem abs_fin (a : ℝ) : abs (fin a) = fin |a| := rfl

/-- Rounding toward zero, as in the conversion `(int)x` and in `fmod`. -/
noncomputable def truncR (a : ℝ) : ℤ := if 0 ≤ a then ⌊a⌋ else ⌈a⌉

/-- Rounding to the nearest integer, halves away from zero (`roundf`). -/
noncomputable def roundR (a : ℝ) : ℤ := if 0 ≤ a then ⌊a + 1/2⌋ else ⌈a - 1/2⌉

/-- `roundf`. -/
noncomputable def round : Fl → Fl
  | fin a => fin (roundR a)
  | x => x

@[simp] theorem round_fin (a : ℝ) : round (fin a) = fin (roundR a) := rfl

/-- `fmodf`/`fmod`: the exact remainder with the sign of the dividend. -/
noncomputable def fmod : Fl → Fl → Fl
  | fin a, fin b => if b = 0 then nan else fin (a - b * truncR (a / b))
  | fin a, pinf => fin a
  | fin a, ninf => fin a
  | _, _ => nan

/-- Unary minus is exact. -/
def neg : Fl → Fl
  | nan => nan
  | pinf => ninf
  | ninf => pinf
  | fin a => fin (-a)
instance : Neg Fl := ⟨neg⟩
@[simp] theorem neg_fin (a : ℝ) : -(fin a) = fin (-a) := rfl

/-- The infinity with the sign of `s`; NaN for zero. -/
noncomputable def infOf (s : ℝ) : Fl := if 0 < s then pinf else if s < 0 then ninf else nan

end Fl

/-- The arithmetic of a C++ implementation. -/
class FloatModel where
  /-- rounding of an exact real result -/
  rnd : ℝ → Fl
  rnd_zero : rnd 0 = .fin 0
  rnd_mono : ∀ a b, a ≤ b → rnd a ≤ rnd b
  /-- `powf` -/
  powf : Fl → Fl → Fl
  /-- `sinf` -/
  sinf : Fl → Fl
  /-- `cosf` -/
  cosf : Fl → Fl
  /-- `atan2f` (first argument is the ordinate) -/
  atan2f : Fl → Fl → Fl
  /-- `expf` -/
  expf : Fl → Fl
  /-- `log10f` -/
  log10f : Fl → Fl

export FloatModel (rnd powf sinf cosf atan2f expf log10f)

namespace Fl
variable [FloatModel]

/-- A float literal that binary32 cannot represent exactly. -/
noncomputable def lit (c : ℝ) : Fl := rnd c

/-- `a + b` -/
noncomputable def add : Fl → Fl → Fl
  | nan, _ => nan
  | _, nan => nan
  | pinf, ninf => nan
  | ninf, pinf => nan
  | pinf, _ => pinf
  | _, pinf => pinf
  | ninf, _ => ninf
  | _, ninf => ninf
  | fin a, fin b => rnd (a + b)

/-- `a - b` -/
noncomputable def sub (a b : Fl) : Fl := add a (neg b)

/-- `a * b` -/
noncomputable def mul : Fl → Fl → Fl
  | nan, _ => nan
  | _, nan => nan
  | pinf, pinf => pinf
  | ninf, ninf => pinf
  | pinf, ninf => ninf
  | ninf, pinf => ninf
  | pinf, fin b => infOf b
  | ninf, fin b => infOf (-b)
  | fin a, pinf => infOf a
  | fin a, ninf => infOf (-a)
  | fin a, fin b => rnd (a * b)

/-- `a / b` (a zero divisor counts as `+0`) -/
noncomputable def div : Fl → Fl → Fl
  | nan, _ => nan
  | _, nan => nan
  | fin a, fin b => if b = 0 then infOf a else rnd (a / b)
  | fin _, _ => fin 0
  | pinf, fin b => if b = 0 then pinf else infOf b
  | ninf, fin b => if b = 0 then ninf else infOf (-b)
  | _, _ => nan

noncomputable instance : Add Fl := ⟨add⟩
noncomputable instance : Sub Fl := ⟨sub⟩
noncomputable instance : Mul Fl := ⟨mul⟩
noncomputable instance : Div Fl := ⟨div⟩

theorem fin_add (a b : ℝ) : fin a + fin b = rnd (a + b) := rfl
theorem fin_sub (a b : ℝ) : fin a - fin b = rnd (a - b) := by
  show rnd (a + -b) = _; rw [sub_eq_add_neg]
theorem fin_mul (a b : ℝ) : fin a * fin b = rnd (a * b) := rfl
theorem fin_div (a b : ℝ) (h : b ≠ 0) : fin a / fin b = rnd (a / b) := by
  show (if b = 0 then _ else _) = _; simp [h]
theorem fin_div_zero (a : ℝ) : fin a / fin 0 = infOf a := by
  show (if (0:ℝ) = 0 then _ else _) = _; simp

theorem add_comm' (a b : Fl) : a + b = b + a := by
  cases a <;> cases b <;> first | rfl | (simp only [fin_add, add_comm])
theorem mul_comm' (a b : Fl) : a * b = b * a := by
  cases a <;> cases b <;> first | rfl | (simp only [fin_mul, mul_comm])

/-- `sqrtf` (correctly rounded, as IEEE 754 demands) -/
noncomputable def sqrt : Fl → Fl
  | nan => nan
  | pinf => pinf
  | ninf => nan
  | fin a => if a < 0 then nan else rnd (Real.sqrt a)

end Fl

/-- Exact arithmetic: no rounding and exact library functions.  `powf` is only fixed where C and
mathematics agree on a real value. -/
class ExactModel [FloatModel] : Prop where
  rnd_eq : ∀ r : ℝ, rnd r = .fin r
  powf_eq : ∀ x y : ℝ, (0 < x ∨ (x = 0 ∧ 0 < y) ∨ ∃ n : ℕ, y = n) → powf (.fin x) (.fin y) = .fin (x ^ y)
  sinf_eq : ∀ x : ℝ, sinf (.fin x) = .fin (Real.sin x)
  cosf_eq : ∀ x : ℝ, cosf (.fin x) = .fin (Real.cos x)
  atan2f_eq : ∀ y x : ℝ, atan2f (.fin y) (.fin x) = .fin (Complex.arg ⟨x, y⟩)
  expf_eq : ∀ x : ℝ, expf (.fin x) = .fin (Real.exp x)
  log10f_eq : ∀ x : ℝ, 0 < x → log10f (.fin x) = .fin (Real.logb 10 x)

/-- Small integers are not rounded (true of every binary floating point format with at least 24 bits). -/
class IntExact [FloatModel] : Prop where
  rnd_int : ∀ n : ℤ, |n| ≤ 2 ^ 24 → rnd (n : ℝ) = .fin n

instance [FloatModel] [ExactModel] : IntExact := ⟨fun n _ => ExactModel.rnd_eq _⟩

namespace Fl

section exact
variable [FloatModel] [ExactModel]
@[simp] theorem rnd_exact (r : ℝ) : rnd r = fin r := ExactModel.rnd_eq r
@[simp] theorem lit_exact (r : ℝ) : lit r = fin r := ExactModel.rnd_eq r
@[simp] theorem add_exact (a b : ℝ) : fin a + fin b = fin (a + b) := by rw [fin_add, rnd_exact]
@[simp] theorem sub_exact (a b : ℝ) : fin a - fin b = fin (a - b) := by rw [fin_sub, rnd_exact]
@[simp] theorem mul_exact (a b : ℝ) : fin a * fin b = fin (a * b) := by rw [fin_mul, rnd_exact]
theorem div_exact (a b : ℝ) (h : b ≠ 0) : fin a / fin b = fin (a / b) := by rw [fin_div _ _ h, rnd_exact]
theorem sqrt_exact (a : ℝ) (h : 0 ≤ a) : sqrt (fin a) = fin (Real.sqrt a) := by
  simp [sqrt, not_lt.mpr h]
end exact

open Classical in
/-- Exact arithmetic as a concrete model: shows that `FloatModel` and `ExactModel` can be met. -/
@[instance_reducible] noncomputable def exactFloat : FloatModel where
  rnd r := fin r
  rnd_zero := rfl
  rnd_mono _ _ h := h
  powf
    | fin x, fin y => if (0 < x ∨ (x = 0 ∧ 0 < y) ∨ ∃ n : ℕ, y = n) then fin (x ^ y) else nan
    | _, _ => nan
  sinf
    | fin x => fin (Real.sin x)
    | _ => nan
  cosf
    | fin x => fin (Real.cos x)
    | _ => nan
  atan2f
    | fin y, fin x => fin (Complex.arg ⟨x, y⟩)
    | _, _ => nan
  expf
    | fin x => fin (Real.exp x)
    | pinf => pinf
    | ninf => fin 0
    | nan => nan
  log10f
    | fin x => if 0 < x then fin (Real.logb 10 x) else if x = 0 then ninf else nan
    | pinf => pinf
    | ninf => nan
    | nan => nan

theorem exactFloat_exact : @ExactModel exactFloat :=
  letI := exactFloat
  { rnd_eq := fun _ => rfl
    powf_eq := fun _ _ h => if_pos h
    sinf_eq := fun _ => rfl
    cosf_eq := fun _ => rfl
    atan2f_eq := fun _ _ => rfl
    expf_eq := fun _ => rfl
    log10f_eq := fun x hx => by simp [log10f, hx] }

end Fl
