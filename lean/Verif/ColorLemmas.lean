import Verif.Hex
import Mathlib.Tactic.FieldSimp
import Mathlib.Tactic.Ring
import Mathlib.Tactic.Positivity

/-!
# Helper lemmas about colour objects (not property statements)
-/

namespace Fl

theorem fin_toFin {x : Fl} (h : x.IsFin) : ∃ r, x = fin r := h

theorem InRange.isFin {lo hi : ℝ} {x : Fl} (h : InRange lo hi x) : x.IsFin := by
  obtain ⟨r, h, _⟩ := h; exact ⟨r, h⟩
theorem InRange.ne_nan {lo hi : ℝ} {x : Fl} (h : InRange lo hi x) : x ≠ nan := by
  obtain ⟨r, rfl, _⟩ := h; simp

variable [FloatModel]

theorem rnd_nonneg {r : ℝ} (h : 0 ≤ r) : ¬ (rnd r < fin 0) := by
  have := FloatModel.rnd_mono 0 r h
  rw [FloatModel.rnd_zero] at this
  cases hr : rnd r <;> simp_all

end Fl

namespace Color
open Fl Outcome

theorem clamp_fin (v mx mn : ℝ) : clamp (fin v) (fin mx) (fin mn) = fin (max (min v mx) mn) := by
  simp [clamp]

theorem clamp_inRange (v : Fl) {mx mn : ℝ} (h : mn ≤ mx) : InRange mn mx (clamp v (fin mx) (fin mn)) := by
  cases v
  · simp [clamp, fmin, h]
  · simp [clamp, fmin, fmax, h]
  · simp [clamp, fmin, fmax, h]
  · rw [clamp_fin]; simp [h]

theorem clamp_of_inRange {v : Fl} {mx mn : ℝ} (h : InRange mn mx v) : clamp v (fin mx) (fin mn) = v := by
  obtain ⟨r, rfl, h1, h2⟩ := h
  rw [clamp_fin, min_eq_left h2, max_eq_left h1]

theorem clamp_idem (v : Fl) {mx mn : ℝ} (h : mn ≤ mx) :
    clamp (clamp v (fin mx) (fin mn)) (fin mx) (fin mn) = clamp v (fin mx) (fin mn) :=
  clamp_of_inRange (clamp_inRange v h)

theorem clamp_nan (mx mn : ℝ) (h : mn ≤ mx) : clamp nan (fin mx) (fin mn) = fin mx := by
  simp [clamp, fmin, h]

/-- Real value of the upper limit. -/
def maxR : ColorType → ℝ
  | .rgbTrue => 255
  | .greyTrue => 255
  | .xyz => 100
  | .xyy => 100
  | .cieluv => 100
  | .lab => 128
  | .lchAb => 100
  | .lchUv => 100
  | _ => 1

/-- Real value of the lower limit. -/
def minR : ColorType → ℝ
  | .cieluv => -100
  | .lab => -128
  | _ => 0

theorem maxOf_eq (t : ColorType) : maxOf t = fin (maxR t) := by cases t <;> simp [maxOf, maxR]
theorem minOf_eq (t : ColorType) : minOf t = fin (minR t) := by cases t <;> simp [minOf, minR]
theorem minR_le_maxR (t : ColorType) : minR t ≤ maxR t := by cases t <;> norm_num [minR, maxR]

variable [FloatModel]

theorem setComponentLim_ok {c c' : Color} {v : Fl} {i : Int} {mx mn : Fl} :
    setComponentLim c v i mx mn = ok c' ↔
      0 ≤ i ∧ i.toNat < c.comps.length ∧ c' = { c with comps := c.comps.set i.toNat (clamp v mx mn) } := by
  unfold setComponentLim throwNewRange
  split
  · rename_i h
    simp; omega
  · rename_i h
    simp only [ok_inj]
    constructor
    · intro h'; refine ⟨by omega, by omega, h'.symm⟩
    · rintro ⟨_, _, h'⟩; exact h'.symm

theorem fmod_range (h : ℝ) : ∃ m : ℝ, fmod (fin h) (fin 360) = fin m ∧ -360 < m ∧ m < 360 := by
  refine ⟨h - 360 * truncR (h / 360), by simp [fmod], ?_⟩
  unfold truncR
  split
  · rename_i hp
    have h1 := Int.floor_le (h / 360)
    have h2 := Int.lt_floor_add_one (h / 360)
    constructor <;> nlinarith
  · rename_i hp
    have h1 := Int.le_ceil (h / 360)
    have h2 := Int.ceil_lt_add_one (h / 360)
    constructor <;> nlinarith

/-- The hue loop needs at most one iteration for every rounding. -/
theorem hueLoop_terminates (h : Fl) (n : Nat) (hn : 2 ≤ n) : hueLoop n (fmod h 360) = some (hueReduce h) := by
  obtain ⟨n, rfl⟩ : ∃ k, n = k + 2 := ⟨n - 2, by omega⟩
  unfold hueReduce
  simp only [hueLoop]
  split
  · rename_i hlt
    have : ¬ (fmod h 360 + 360 < 0) := by
      cases h with
      | fin r =>
        obtain ⟨m, hm, h1, _⟩ := fmod_range r
        simp only [lit_def, zero_def] at *
        rw [hm, fin_add]
        exact rnd_nonneg (by linarith)
      | nan => simp [fmod] at hlt
      | pinf => simp [fmod] at hlt
      | ninf => simp [fmod] at hlt
    rw [if_neg this]
  · rfl

/-- The mathematical `h mod 360`. -/
theorem fmod_360_nonneg {h : ℝ} : (if h - 360 * (truncR (h / 360) : ℝ) < 0 then h - 360 * (truncR (h / 360) : ℝ) + 360
      else h - 360 * (truncR (h / 360) : ℝ)) = 360 * Int.fract (h / 360) := by
  have key : ∀ z : ℤ, 0 ≤ h - 360 * (z:ℝ) → h - 360 * (z:ℝ) < 360 → h - 360 * (z:ℝ) = 360 * Int.fract (h / 360) := by
    intro z h1 h2
    have : ⌊h / 360⌋ = z := by
      rw [Int.floor_eq_iff]; constructor <;> linarith
    rw [Int.fract, this]; ring
  obtain ⟨m, hm, h1, h2⟩ := fmod_range h
  simp [fmod] at hm
  split
  · rename_i hl
    have := key (truncR (h / 360) - 1) (by push_cast; linarith) (by push_cast; linarith)
    rw [← this]; push_cast; ring
  · rename_i hl
    exact key _ (not_lt.mp hl) (by linarith)

theorem hueReduce_fin (h : ℝ) (hr : rnd (360 * Int.fract (h / 360)) = fin (360 * Int.fract (h / 360))) :
    hueReduce (fin h) = fin (360 * Int.fract (h / 360)) := by
  have key := fmod_360_nonneg (h := h)
  have h360 : fmod (fin h) 360 = fin (h - 360 * truncR (h / 360)) := by simp [fmod]
  unfold hueReduce
  simp only [h360, zero_def, fin_lt]
  split
  · rename_i hl
    rw [if_pos hl] at key
    simp only [lit_def, fin_add]
    rw [key, hr]
  · rename_i hl
    rw [if_neg hl] at key
    rw [key]

theorem hueReduce_fin_of_nonneg {h : ℝ} (h0 : 0 ≤ h) : hueReduce (fin h) = fin (360 * Int.fract (h / 360)) := by
  have key := fmod_360_nonneg (h := h)
  have h360 : fmod (fin h) 360 = fin (h - 360 * truncR (h / 360)) := by simp [fmod]
  have hn : ¬ (h - 360 * (truncR (h / 360) : ℝ) < 0) := by
    have : 0 ≤ h / 360 := by positivity
    rw [truncR, if_pos this, not_lt]
    have := Int.floor_le (h / 360)
    linarith
  unfold hueReduce
  simp only [h360, zero_def, fin_lt, if_neg hn]
  rw [if_neg hn] at key
  rw [key]

theorem fract_small {h : ℝ} (h0 : 0 ≤ h) (h1 : h < 360) : 360 * Int.fract (h / 360) = h := by
  have : Int.fract (h / 360) = h / 360 := Int.fract_eq_self.mpr ⟨by positivity, by rw [div_lt_one] <;> linarith⟩
  rw [this]; ring

/-- Storing a hue that is already in 0..359 keeps it, whatever the rounding. -/
theorem hueReduce_id {h : ℝ} (h0 : 0 ≤ h) (h1 : h < 360) : hueReduce (fin h) = fin h := by
  rw [hueReduce_fin_of_nonneg h0, fract_small h0 h1]

end Color
