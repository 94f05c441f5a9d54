import Verif.SmallError
import Mathlib.Data.Int.Log
import Mathlib.Algebra.Order.Round
import Mathlib.Tactic.Positivity
import Mathlib.Tactic.Ring
import Mathlib.Tactic.FieldSimp

/-!
# IEEE 754 single precision

A concrete instance of `FloatModel`: `float` as binary32 with round to nearest, ties to even, gradual underflow and overflow to the infinities.
The library functions are the correctly rounded ones.  Not a part of the repository; the instance shows that the assumptions
`FloatModel`, `IntExact` and `SmallError` are met by the arithmetic the library runs on, and it turns theorems about every `FloatModel` into theorems
about binary32.
-/

namespace Binary32

/-- The nearest integer, ties to even. -/
noncomputable def rne (x : ℝ) : ℤ :=
  if x - ⌊x⌋ < 1 / 2 then ⌊x⌋ else if 1 / 2 < x - ⌊x⌋ then ⌊x⌋ + 1 else if Even ⌊x⌋ then ⌊x⌋ else ⌊x⌋ + 1

theorem rne_cases (x : ℝ) : rne x = ⌊x⌋ ∨ rne x = ⌊x⌋ + 1 := by
  unfold rne; split_ifs <;> simp

theorem rne_near (x : ℝ) : |(rne x : ℝ) - x| ≤ 1 / 2 := by
  have h1 := Int.floor_le x
  have h2 := Int.lt_floor_add_one x
  rw [abs_le]
  unfold rne
  split_ifs <;> push_cast <;> constructor <;> linarith

theorem rne_int (n : ℤ) : rne n = n := by
  unfold rne; simp

theorem rne_mono {x y : ℝ} (h : x ≤ y) : rne x ≤ rne y := by
  have hf := Int.floor_le_floor h
  rcases hf.lt_or_eq with h1 | h1
  · rcases rne_cases x with a | a <;> rcases rne_cases y with b | b <;> omega
  · unfold rne
    rw [h1]
    split_ifs <;> first | omega | (exfalso; linarith)

theorem rne_neg (x : ℝ) : rne (-x) = -rne x := by
  by_cases hx : x = ⌊x⌋
  · rw [hx, ← Int.cast_neg, rne_int, rne_int]
  · have h1 := Int.floor_le x
    have h2 := Int.lt_floor_add_one x
    have h3 : (⌊x⌋ : ℝ) < x := lt_of_le_of_ne h1 (Ne.symm hx)
    have hf : ⌊-x⌋ = -⌊x⌋ - 1 := by
      rw [Int.floor_eq_iff]; push_cast; constructor <;> linarith
    have hp : Even (-⌊x⌋ - 1) ↔ ¬ Even ⌊x⌋ := by
      rw [Int.even_sub_one, even_neg]
    unfold rne
    rw [hf]
    push_cast
    by_cases he : Even ⌊x⌋
    · simp only [if_pos he, if_neg (fun k => (hp.mp k) he)]
      split_ifs <;> first | omega | (exfalso; linarith)
    · simp only [if_neg he, if_pos (hp.mpr he)]
      split_ifs <;> first | omega | (exfalso; linarith)

/-- The exponent of the last place of a binary32 number of the size of `r`: 24 significant bits, at least `2^-149`. -/
noncomputable def ulpExp (r : ℝ) : ℤ := max (Int.log 2 |r| - 23) (-149)

/-- Rounding to 24 significant bits with gradual underflow; the exponent is not limited above. -/
noncomputable def value (r : ℝ) : ℝ := rne (r / 2 ^ ulpExp r) * 2 ^ ulpExp r

/-- Rounding to binary32. -/
noncomputable def round32 (r : ℝ) : Fl :=
  if 2 ^ 128 ≤ value r then .pinf else if value r ≤ -2 ^ 128 then .ninf else .fin (value r)

theorem two_pos (e : ℤ) : (0 : ℝ) < 2 ^ e := by positivity

theorem value_zero : value 0 = 0 := by
  unfold value
  have : rne (0 / 2 ^ ulpExp 0) = 0 := by
    rw [zero_div]; exact_mod_cast rne_int 0
  rw [this]; simp

theorem value_neg (r : ℝ) : value (-r) = -value r := by
  unfold value ulpExp
  rw [abs_neg, neg_div, rne_neg]; push_cast; ring

theorem ulp_mono {a b : ℝ} (ha : 0 < a) (h : a ≤ b) : ulpExp a ≤ ulpExp b := by
  unfold ulpExp
  rw [abs_of_pos ha, abs_of_pos (ha.trans_le h)]
  have := Int.log_mono_right (b := 2) ha h
  omega

theorem lt_ulp (r : ℝ) (h : r ≠ 0) : |r| < 2 ^ (ulpExp r + 24) := by
  have h1 := Int.lt_zpow_succ_log_self (b := 2) (by norm_num) |r|
  refine lt_of_lt_of_le h1 ?_
  push_cast
  refine zpow_le_zpow_right₀ (by norm_num) ?_
  unfold ulpExp; omega

theorem ulp_le {r : ℝ} (h : r ≠ 0) (he : -149 < ulpExp r) : (2 : ℝ) ^ (ulpExp r + 23) ≤ |r| := by
  have h1 := Int.zpow_log_le_self (b := 2) (by norm_num) (abs_pos.mpr h)
  refine le_trans ?_ h1
  push_cast
  refine zpow_le_zpow_right₀ (by norm_num) ?_
  unfold ulpExp at *; omega

theorem value_mono_pos {a b : ℝ} (ha : 0 < a) (h : a ≤ b) : value a ≤ value b := by
  have hb := ha.trans_le h
  rcases (ulp_mono ha h).lt_or_eq with he | he
  · -- different binades
    have h1 : (rne (a / 2 ^ ulpExp a) : ℝ) ≤ 2 ^ 24 := by
      have : rne (a / 2 ^ ulpExp a) ≤ rne (((2 ^ 24 : ℤ) : ℝ)) := by
        apply rne_mono
        rw [div_le_iff₀ (two_pos _)]
        have := lt_ulp a ha.ne'
        rw [abs_of_pos ha, zpow_add₀ (by norm_num)] at this
        push_cast
        norm_num at this ⊢
        linarith
      rw [rne_int] at this
      exact_mod_cast this
    have h2 : (2 : ℝ) ^ 23 ≤ (rne (b / 2 ^ ulpExp b) : ℝ) := by
      have : rne (((2 ^ 23 : ℤ) : ℝ)) ≤ rne (b / 2 ^ ulpExp b) := by
        apply rne_mono
        rw [le_div_iff₀ (two_pos _)]
        have := ulp_le hb.ne' (lt_of_le_of_lt (by unfold ulpExp; omega) he)
        rw [abs_of_pos hb, zpow_add₀ (by norm_num)] at this
        push_cast
        norm_num at this ⊢
        linarith
      rw [rne_int] at this
      exact_mod_cast this
    have h3 : (2 : ℝ) ^ (ulpExp a + 1) ≤ 2 ^ ulpExp b := zpow_le_zpow_right₀ (by norm_num) (by omega)
    rw [zpow_add₀ (by norm_num), zpow_one] at h3
    unfold value
    calc (rne (a / 2 ^ ulpExp a) : ℝ) * 2 ^ ulpExp a ≤ 2 ^ 24 * 2 ^ ulpExp a := by gcongr
      _ = 2 ^ 23 * (2 ^ ulpExp a * 2) := by ring
      _ ≤ 2 ^ 23 * 2 ^ ulpExp b := by gcongr
      _ ≤ rne (b / 2 ^ ulpExp b) * 2 ^ ulpExp b := by gcongr
  · unfold value
    rw [he]
    have : rne (a / 2 ^ ulpExp b) ≤ rne (b / 2 ^ ulpExp b) := rne_mono (by gcongr)
    have : (rne (a / 2 ^ ulpExp b) : ℝ) ≤ rne (b / 2 ^ ulpExp b) := by exact_mod_cast this
    gcongr

theorem value_nonneg {a : ℝ} (ha : 0 ≤ a) : 0 ≤ value a := by
  have : rne (((0 : ℤ) : ℝ)) ≤ rne (a / 2 ^ ulpExp a) := rne_mono (by push_cast; positivity)
  rw [rne_int] at this
  have : (0 : ℝ) ≤ rne (a / 2 ^ ulpExp a) := by exact_mod_cast this
  unfold value; positivity

theorem value_mono {a b : ℝ} (h : a ≤ b) : value a ≤ value b := by
  rcases lt_trichotomy a 0 with ha | ha | ha
  · rcases lt_or_ge b 0 with hb | hb
    · have := value_mono_pos (a := -b) (b := -a) (by linarith) (by linarith)
      rw [value_neg, value_neg] at this; linarith
    · have h1 := value_nonneg (a := -a) (by linarith)
      rw [value_neg] at h1
      have := value_nonneg hb
      linarith
  · subst ha; rw [value_zero]; exact value_nonneg h
  · exact value_mono_pos ha h

theorem round_mono (a b : ℝ) (h : a ≤ b) : round32 a ≤ round32 b := by
  have := value_mono h
  unfold round32
  split_ifs <;> simp <;> first | linarith | trivial

theorem round_zero : round32 0 = .fin 0 := by
  unfold round32; rw [value_zero]; norm_num

/-- Rounding is off by at most half a unit in the last place. -/
theorem value_near (r : ℝ) : |value r - r| ≤ 2 ^ ulpExp r / 2 := by
  have h := rne_near (r / 2 ^ ulpExp r)
  have h2 := two_pos (ulpExp r)
  have e : value r - r = ((rne (r / 2 ^ ulpExp r) : ℝ) - r / 2 ^ ulpExp r) * 2 ^ ulpExp r := by
    unfold value; field_simp
  rw [e, abs_mul, abs_of_pos h2]
  calc _ ≤ 1 / 2 * (2 : ℝ) ^ ulpExp r := by gcongr
    _ = _ := by ring

/-- Relative error `2^-24`, absolute error `2^-150` in the subnormal range. -/
theorem value_error (r : ℝ) : |value r - r| ≤ |r| / 2 ^ 24 + 1 / 2 ^ 150 := by
  by_cases h : r = 0
  · subst h; rw [value_zero]; simp
  refine (value_near r).trans ?_
  by_cases he : -149 < ulpExp r
  · have := ulp_le h he
    rw [zpow_add₀ (by norm_num)] at this
    have h3 : (0 : ℝ) ≤ 1 / 2 ^ 150 := by positivity
    norm_num at this h3 ⊢
    linarith
  · have : ulpExp r = -149 := by unfold ulpExp at *; omega
    rw [this]
    have : (0 : ℝ) ≤ |r| / 2 ^ 24 := by positivity
    norm_num at this ⊢
    linarith

/-- The numbers of the format are not changed by rounding. -/
theorem value_exact (m e : ℤ) (hm : |m| ≤ 2 ^ 24) (he : -149 ≤ e) : value (m * 2 ^ e) = m * 2 ^ e := by
  by_cases h0 : m = 0
  · subst h0; simp [value_zero]
  have hr : (m : ℝ) * 2 ^ e ≠ 0 := mul_ne_zero (by exact_mod_cast h0) (two_pos e).ne'
  set r : ℝ := m * 2 ^ e with hr'
  have hle : |r| ≤ 2 ^ (e + 24) := by
    rw [hr', abs_mul, abs_of_pos (two_pos e), zpow_add₀ (by norm_num)]
    have : (|m| : ℝ) ≤ 2 ^ 24 := by exact_mod_cast hm
    have h2 := two_pos e
    norm_num at this ⊢
    nlinarith
  -- it is a multiple of its unit in the last place
  have key : ∃ k : ℤ, r / 2 ^ ulpExp r = k := by
    by_cases hu : ulpExp r ≤ e
    · obtain ⟨n, hn⟩ := Int.eq_ofNat_of_zero_le (sub_nonneg.mpr hu)
      refine ⟨m * 2 ^ n, ?_⟩
      have : e = ulpExp r + n := by omega
      rw [hr', div_eq_iff (two_pos _).ne']
      conv_lhs => rw [this]
      rw [zpow_add₀ (by norm_num)]; push_cast; rw [zpow_natCast]; ring
    · push Not at hu
      have h1 := ulp_le hr (by omega)
      have h2 : (2 : ℝ) ^ (ulpExp r + 23) ≤ 2 ^ (e + 24) := h1.trans hle
      have h3 : ulpExp r + 23 ≤ e + 24 := (zpow_le_zpow_iff_right₀ (by norm_num : (1 : ℝ) < 2)).mp h2
      have h4 : ulpExp r = e + 1 := by omega
      have h5 : |r| = 2 ^ (e + 24) := le_antisymm hle (by rw [h4, show e + 1 + 23 = e + 24 by ring] at h1; exact h1)
      rw [h4]
      have h6 : (2 : ℝ) ^ (e + 24) / 2 ^ (e + 1) = 2 ^ 23 := by
        rw [← zpow_sub₀ (by norm_num)]
        have : e + 24 - (e + 1) = 23 := by ring
        rw [this]; norm_num
      rcases abs_choice r with h7 | h7
      · refine ⟨2 ^ 23, ?_⟩; rw [← h7, h5, h6]; norm_num
      · refine ⟨-2 ^ 23, ?_⟩
        have : r = -2 ^ (e + 24) := by rw [← h5, h7]; ring
        rw [this, neg_div, h6]; norm_num
  obtain ⟨k, hk⟩ := key
  unfold value
  rw [hk, rne_int, ← hk, div_mul_cancel₀ _ (two_pos _).ne']

/-- A number of the format below the overflow limit. -/
theorem round_exact (m e : ℤ) (hm : |m| ≤ 2 ^ 24) (he : -149 ≤ e) (ht : |(m : ℝ) * 2 ^ e| < 2 ^ 128) : round32 (m * 2 ^ e) = .fin (m * 2 ^ e) := by
  rw [abs_lt] at ht
  unfold round32
  rw [value_exact m e hm he, if_neg (not_le.mpr ht.2), if_neg (not_le.mpr ht.1)]

open Classical in
/-- Binary32 arithmetic with correctly rounded library functions. -/
@[instance_reducible] noncomputable def binary32 : FloatModel where
  rnd := round32
  rnd_zero := round_zero
  rnd_mono := round_mono
  powf
    | .fin x, .fin y => if (0 < x ∨ (x = 0 ∧ 0 < y) ∨ ∃ n : ℕ, y = n) then round32 (x ^ y) else .nan
    | _, _ => .nan
  sinf
    | .fin x => round32 (Real.sin x)
    | _ => .nan
  cosf
    | .fin x => round32 (Real.cos x)
    | _ => .nan
  atan2f
    | .fin y, .fin x => round32 (Complex.arg ⟨x, y⟩)
    | _, _ => .nan
  expf
    | .fin x => round32 (Real.exp x)
    | .pinf => .pinf
    | .ninf => .fin 0
    | .nan => .nan
  log10f
    | .fin x => if 0 < x then round32 (Real.logb 10 x) else if x = 0 then .ninf else .nan
    | .pinf => .pinf
    | .ninf => .nan
    | .nan => .nan

theorem binary32_int : @IntExact binary32 :=
  letI := binary32
  { rnd_int := fun n hn => by
      have h := round_exact n 0 hn (by norm_num) (by
        have : (|n| : ℝ) ≤ 2 ^ 24 := by exact_mod_cast hn
        simp only [zpow_zero, mul_one]
        refine lt_of_le_of_lt this (by norm_num))
      show round32 n = _
      simpa using h }

theorem binary32_small : @SmallError binary32 :=
  letI := binary32
  { rnd_near := fun r hr => by
      have h1 := value_error r
      have h2 : |value r - r| ≤ |r| / 2 ^ 20 + 1 / 2 ^ 100 := by
        refine h1.trans ?_
        gcongr <;> norm_num
      have h3 : |value r| < 2 ^ 128 := by
        have : |value r| ≤ |value r - r| + |r| := by
          have := abs_add_le (value r - r) r; simpa using this
        have h4 : |r| / 2 ^ 24 ≤ 2 ^ 100 / 2 ^ 24 := by gcongr
        refine lt_of_le_of_lt this ?_
        norm_num at *
        linarith
      rw [abs_lt] at h3
      refine ⟨value r, ?_, h2⟩
      show round32 r = _
      unfold round32
      rw [if_neg (not_le.mpr h3.2), if_neg (not_le.mpr h3.1)] }

/-- The unit in the last place of a number in a normal binade. -/
theorem ulp_eq {r : ℝ} {e : ℤ} (he : -149 ≤ e) (h1 : 2 ^ (e + 23) ≤ |r|) (h2 : |r| < 2 ^ (e + 24)) : ulpExp r = e := by
  have h0 : 0 < |r| := lt_of_lt_of_le (two_pos _) h1
  have l1 : e + 23 ≤ Int.log 2 |r| := (Int.zpow_le_iff_le_log (b := 2) (by norm_num) h0).mp (by exact_mod_cast h1)
  have l2 : Int.log 2 |r| < e + 24 := (Int.lt_zpow_iff_log_lt (b := 2) (by norm_num) h0).mp (by exact_mod_cast h2)
  unfold ulpExp; omega

theorem rne_eq {x : ℝ} {m : ℤ} (h : |x - m| < 1 / 2) : rne x = m := by
  have h1 := rne_near x
  rw [abs_lt] at h; rw [abs_le] at h1
  have a : (rne x : ℝ) < m + 1 := by linarith
  have b : (m : ℝ) - 1 < rne x := by linarith
  have a' : rne x < m + 1 := by exact_mod_cast a
  have b' : m - 1 < rne x := by exact_mod_cast b
  omega

/-- How to round a given number: the nearest multiple of the unit in the last place. -/
theorem round_eq {r : ℝ} (m e : ℤ) (he : -149 ≤ e) (ht : e ≤ 103) (h1 : 2 ^ (e + 23) ≤ |r|) (h2 : |r| < 2 ^ (e + 24)) (h3 : |r / 2 ^ e - m| < 1 / 2) :
    round32 r = .fin (m * 2 ^ e) := by
  have hv : value r = m * 2 ^ e := by unfold value; rw [ulp_eq he h1 h2, rne_eq h3]
  have hb : |(m : ℝ) * 2 ^ e| < 2 ^ 128 := by
    have p := two_pos e
    have a : |(m : ℝ)| ≤ 2 ^ 24 + 1 / 2 := by
      have q : |r / 2 ^ e| < 2 ^ 24 := by
        rw [abs_div, abs_of_pos p, div_lt_iff₀ p]
        rw [zpow_add₀ (by norm_num)] at h2; norm_num at h2 ⊢; linarith
      have := abs_sub_abs_le_abs_sub (m : ℝ) (r / 2 ^ e)
      rw [abs_sub_comm] at this; linarith
    have b : (2 : ℝ) ^ e ≤ 2 ^ (103 : ℤ) := zpow_le_zpow_right₀ (by norm_num) ht
    rw [abs_mul, abs_of_pos p]
    calc _ ≤ (2 ^ 24 + 1 / 2) * (2 : ℝ) ^ (103 : ℤ) := by gcongr
      _ < 2 ^ 128 := by norm_num
  rw [abs_lt] at hb
  unfold round32
  rw [hv, if_neg (not_le.mpr hb.2), if_neg (not_le.mpr hb.1)]

/-- Rounding really happens: one third is not a binary32 number. -/
theorem third : round32 (1 / 3) = .fin (11184811 / 2 ^ 25) := by
  rw [round_eq 11184811 (-25)] <;> norm_num [abs_lt, abs_of_pos]

theorem binary32_not_exact : ¬ @ExactModel binary32 := by
  intro h
  have h1 : round32 (1 / 3) = .fin (1 / 3) := @ExactModel.rnd_eq binary32 h _
  rw [third] at h1
  norm_num at h1

end Binary32
