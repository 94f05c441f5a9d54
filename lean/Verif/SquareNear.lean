import Verif.FineError
import Verif.DistanceLemmas

/-!
# Sums of squares in an arithmetic that rounds

`SquareNear` bounds the error of `powf(x, 2)`, also for negative `x`.  It holds of the exact arithmetic and of binary32.
-/

open Outcome Fl Prog

/-- Squares are accurate to two parts in 2^23 and not negative. -/
class SquareNear [FloatModel] : Prop where
  square_near : ∀ x : ℝ, |x| ≤ 2 ^ 20 → ∃ r', powf (.fin x) (.fin 2) = .fin r' ∧ 0 ≤ r' ∧ |r' - x ^ 2| ≤ x ^ 2 / 2 ^ 22 + 1 / 2 ^ 100

instance [FloatModel] [ExactModel] : SquareNear where
  square_near x _ := ⟨x ^ 2, by rw [ExactModel.powf_eq _ _ (.inr (.inr ⟨2, by norm_num⟩))]; congr 1; exact_mod_cast Real.rpow_natCast x 2, sq_nonneg x, by rw [sub_self, abs_zero]; positivity⟩

namespace Binary32

theorem powf_two (x : ℝ) : letI := binary32; powf (.fin x) (.fin 2) = round32 (x ^ 2) := by
  letI := binary32
  have h : powf (.fin x) (.fin 2) = round32 (x ^ (2 : ℝ)) := if_pos (.inr (.inr ⟨2, by norm_num⟩))
  rw [h]
  congr 1
  exact_mod_cast Real.rpow_natCast x 2

theorem binary32_square : @SquareNear binary32 :=
  letI := binary32
  { square_near := fun x hx => by
      have h1 : x ^ 2 ≤ 2 ^ 40 := by
        rw [← sq_abs, show (2 : ℝ) ^ 40 = (2 ^ 20) ^ 2 by norm_num]
        gcongr
      obtain ⟨r', e, n⟩ := round_fine (r := x ^ 2) (by rw [abs_of_nonneg (sq_nonneg x)]; exact h1.trans (by norm_num))
      rw [abs_of_nonneg (sq_nonneg x)] at n
      refine ⟨r', (powf_two x).trans e, ?_, n.trans ?_⟩
      · have := round_mono 0 (x ^ 2) (sq_nonneg x)
        rw [round_zero, e] at this
        simpa using this
      · have := sq_nonneg x
        gcongr <;> norm_num }

end Binary32

namespace Fl

/-- `x` is a number, not negative, with a relative error of `k` parts in 2^23 and an absolute error of `τ`. -/
def RelErr (x : Fl) (A k τ : ℝ) : Prop := ∃ y, x = fin y ∧ 0 ≤ y ∧ |y - A| ≤ A * k / 2 ^ 23 + τ

theorem RelErr.weaken {x : Fl} {A k τ l σ : ℝ} (h : RelErr x A k τ) (hA : 0 ≤ A) (hk : k ≤ l) (hτ : τ ≤ σ) : RelErr x A l σ := by
  obtain ⟨y, e, h0, h1⟩ := h
  refine ⟨y, e, h0, h1.trans ?_⟩
  gcongr

variable [FloatModel]

theorem rnd_nonneg_fin {r y : ℝ} (hr : 0 ≤ r) (h : rnd r = fin y) : 0 ≤ y := by
  have := FloatModel.rnd_mono 0 r hr
  rw [FloatModel.rnd_zero, h] at this
  simpa using this

/-- Rounding costs one part in 2^23. -/
theorem RelErr.round [FineError] {p A k τ : ℝ} (hp : 0 ≤ p) (h : |p - A| ≤ A * k / 2 ^ 23 + τ) (hA : 0 ≤ A) (hA1 : A ≤ 2 ^ 40) (hk0 : 0 ≤ k) (hk : k ≤ 1000) (ht0 : 0 ≤ τ) (ht : τ ≤ 1) :
    RelErr (rnd p) A (k + 1.1) (2 * τ + 1 / 2 ^ 100) := by
  have hAk : A * k ≤ A * 1000 := by gcongr
  have hA0k : 0 ≤ A * k := by positivity
  have hp1 : |p| ≤ A + A * k / 2 ^ 23 + τ := by
    have := abs_add_le (p - A) A
    rw [sub_add_cancel, abs_of_nonneg hA] at this; linarith
  obtain ⟨y, e, n⟩ := FineError.rnd_near p (hp1.trans (by norm_num at *; linarith))
  refine ⟨y, e, rnd_nonneg_fin hp e, ?_⟩
  have h3 := abs_sub_le y p A
  have h4 : |p| / 2 ^ 23 ≤ (A + A * k / 2 ^ 23 + τ) / 2 ^ 23 := by gcongr
  have h5 : A * (k + 1.1) = A * k + A * 1.1 := by ring
  rw [h5]
  norm_num at *
  linarith

theorem RelErr.add [FineError] {x y : Fl} {A B k τ σ : ℝ} (hx : RelErr x A k τ) (hy : RelErr y B k σ) (hA : 0 ≤ A) (hB : 0 ≤ B) (h1 : A + B ≤ 2 ^ 40) (hk0 : 0 ≤ k) (hk : k ≤ 1000)
    (ht0 : 0 ≤ τ) (hs0 : 0 ≤ σ) (ht : τ + σ ≤ 1) : RelErr (x + y) (A + B) (k + 1.1) (2 * (τ + σ) + 1 / 2 ^ 100) := by
  obtain ⟨p, rfl, p0, hp⟩ := hx
  obtain ⟨q, rfl, q0, hq⟩ := hy
  rw [fin_add]
  refine RelErr.round (by linarith) ?_ (by linarith) h1 hk0 hk (by linarith) ht
  rw [show p + q - (A + B) = (p - A) + (q - B) by ring]
  refine (abs_add_le _ _).trans ((add_le_add hp hq).trans (le_of_eq ?_))
  ring

/-- The square of a difference. -/
theorem square_diff [FineError] [SquareNear] {x y : ℝ} (hx : |x| ≤ 1000) (hy : |y| ≤ 1000) : RelErr (powf (fin x - fin y) 2) ((x - y) ^ 2) 5 (1 / 2 ^ 80) := by
  have hd : |x - y| ≤ 2000 := (abs_sub x y).trans (by linarith)
  obtain ⟨u, e, n⟩ := FineError.rnd_near (x - y) (hd.trans (by norm_num))
  set a := |x - y| with ha
  have a0 : 0 ≤ a := abs_nonneg _
  have hu : |u| ≤ 2 ^ 20 := by
    have := abs_add_le (u - (x - y)) (x - y)
    rw [sub_add_cancel] at this
    norm_num at *
    linarith
  obtain ⟨r, er, r0, nr⟩ := SquareNear.square_near u hu
  have h2 : (2 : Fl) = fin 2 := by simp
  refine ⟨r, by rw [fin_sub, e, h2, er], r0, ?_⟩
  have sq : (x - y) ^ 2 = a ^ 2 := (sq_abs _).symm
  have d1 : |u ^ 2 - (x - y) ^ 2| ≤ (a / 2 ^ 23 + 1 / 2 ^ 100) * (2 * a + (a / 2 ^ 23 + 1 / 2 ^ 100)) := by
    rw [show u ^ 2 - (x - y) ^ 2 = (u - (x - y)) * (2 * (x - y) + (u - (x - y))) by ring, abs_mul]
    refine mul_le_mul n ((abs_add_le _ _).trans (add_le_add (le_of_eq ?_) n)) (abs_nonneg _) (by positivity)
    rw [abs_mul, abs_two]
  have d2 : (a / 2 ^ 23 + 1 / 2 ^ 100) * (2 * a + (a / 2 ^ 23 + 1 / 2 ^ 100)) = a ^ 2 * (2 / 2 ^ 23 + 1 / 2 ^ 46) + a * (2 / 2 ^ 100 + 2 / 2 ^ 123) + 1 / 2 ^ 200 := by ring
  rw [d2] at d1
  have d3 := abs_sub_le r (u ^ 2) ((x - y) ^ 2)
  have d4 : u ^ 2 ≤ (x - y) ^ 2 + |u ^ 2 - (x - y) ^ 2| := by have := le_abs_self (u ^ 2 - (x - y) ^ 2); linarith
  rw [sq] at *
  have a2 : 0 ≤ a ^ 2 := sq_nonneg a
  norm_num at *
  linarith

/-- The root of a sum. -/
theorem RelErr.sqrt [FineError] {x : Fl} {A k τ : ℝ} (h : RelErr x A k τ) (hA : 0 ≤ A) (hA1 : A ≤ 2 ^ 40) (hk0 : 0 ≤ k) (hk : k ≤ 10) (ht0 : 0 ≤ τ) (ht : τ ≤ 1 / 2 ^ 70) :
    RelErr (Fl.sqrt x) (Real.sqrt A) 8 (1 / 2 ^ 30) := by
  obtain ⟨p, rfl, p0, hp⟩ := h
  set d := Real.sqrt A with hd
  have d0 : 0 ≤ d := Real.sqrt_nonneg A
  have dA : d ^ 2 = A := Real.sq_sqrt hA
  have d1 : d ≤ 2 ^ 20 := by
    rw [hd, Real.sqrt_le_left (by norm_num)]
    exact hA1.trans (by norm_num)
  have hAk : A * k ≤ A * 10 := by gcongr
  rw [abs_le] at hp
  -- the root of the approximation
  have up : Real.sqrt p ≤ d * (1 + 5.5 / 2 ^ 23) + 1 / 2 ^ 34 := by
    rw [Real.sqrt_le_left (by positivity)]
    have : (d * (1 + 5.5 / 2 ^ 23) + 1 / 2 ^ 34) ^ 2 = A * (1 + 5.5 / 2 ^ 23) ^ 2 + d * (2 * (1 + 5.5 / 2 ^ 23) / 2 ^ 34) + 1 / 2 ^ 68 := by rw [← dA]; ring
    rw [this]
    norm_num at *
    linarith
  have lo : d * (1 - 5.5 / 2 ^ 23) ≤ Real.sqrt p + 1 / 2 ^ 34 := by
    have s0 := Real.sqrt_nonneg p
    have sp : Real.sqrt p ^ 2 = p := Real.sq_sqrt p0
    refine abs_le_of_sq_le_sq' ?_ (by positivity) |>.2
    have e1 : (d * (1 - 5.5 / 2 ^ 23)) ^ 2 = A * (1 - 5.5 / 2 ^ 23) ^ 2 := by rw [mul_pow, dA]
    have e2 : (Real.sqrt p + 1 / 2 ^ 34) ^ 2 = p + Real.sqrt p * (2 / 2 ^ 34) + 1 / 2 ^ 68 := by rw [add_sq, sp]; ring
    rw [e1, e2]
    norm_num at *
    have s0 := Real.sqrt_nonneg p
    linarith
  have hs : Fl.sqrt (fin p) = rnd (Real.sqrt p) := by simp [Fl.sqrt, not_lt.mpr p0]
  rw [hs]
  have := RelErr.round (k := 6) (τ := 1 / 2 ^ 33) (p := Real.sqrt p) (A := d) (Real.sqrt_nonneg p) (by
    rw [abs_le]; constructor <;> (norm_num at *; linarith)) d0 (d1.trans (by norm_num)) (by norm_num) (by norm_num) (by positivity) (by norm_num)
  exact this.weaken d0 (by norm_num) (by norm_num)

end Fl

namespace Distance
variable [FloatModel] [FineError] [SquareNear]

/-- The sum of the squared differences. -/
theorem squares_near {a b : Color} {x y z x' y' z' : ℝ} (ha : a.comps = [fin x, fin y, fin z]) (hb : b.comps = [fin x', fin y', fin z']) (hx : |x| ≤ 1000) (hy : |y| ≤ 1000) (hz : |z| ≤ 1000)
    (hx' : |x'| ≤ 1000) (hy' : |y'| ≤ 1000) (hz' : |z'| ≤ 1000) :
    ∃ s, squares a b a.comps.length 0 0 = ok s ∧ RelErr s (sq3 x y z x' y' z') 9 (1 / 2 ^ 70) := by
  have hl : a.comps.length = 3 := by rw [ha]; rfl
  refine ⟨0 + powf (fin x - fin x') 2 + powf (fin y - fin y') 2 + powf (fin z - fin z') 2, ?_, ?_⟩
  · rw [hl]
    simp only [squares, ha, hb, List.getElem?_cons_zero, List.getElem?_cons_succ]
  · have big : ∀ u v : ℝ, |u| ≤ 1000 → |v| ≤ 1000 → (u - v) ^ 2 ≤ 2 ^ 23 := by
      intro u v h1 h2
      rw [← sq_abs]
      have : |u - v| ≤ 2000 := (abs_sub u v).trans (by linarith)
      calc |u - v| ^ 2 ≤ 2000 ^ 2 := by gcongr
        _ ≤ _ := by norm_num
    have b1 := big x x' hx hx'
    have b2 := big y y' hy hy'
    have b3 := big z z' hz hz'
    have n1 := sq_nonneg (x - x')
    have n2 := sq_nonneg (y - y')
    have n3 := sq_nonneg (z - z')
    have z0 : RelErr (0 : Fl) 0 5 0 := ⟨0, by simp, le_rfl, by simp⟩
    have s1 := z0.add (square_diff hx hx') le_rfl n1 (by norm_num at *; linarith) (by norm_num) (by norm_num) le_rfl (by positivity) (by norm_num)
    have s2 := s1.add ((square_diff hy hy').weaken n2 (by norm_num) le_rfl) (by linarith) n2 (by norm_num at *; linarith) (by norm_num) (by norm_num) (by positivity) (by positivity) (by norm_num)
    have s3 := s2.add ((square_diff hz hz').weaken n3 (by norm_num) le_rfl) (by linarith) n3 (by norm_num at *; linarith) (by norm_num) (by norm_num) (by positivity) (by positivity) (by norm_num)
    rw [show sq3 x y z x' y' z' = 0 + (x - x') ^ 2 + (y - y') ^ 2 + (z - z') ^ 2 by unfold sq3; ring]
    exact s3.weaken (by linarith) (by norm_num) (by norm_num)

end Distance
