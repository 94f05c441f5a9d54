import Verif.TripLemmas
import Verif.SmallError
import Mathlib.Tactic.Linarith
import Mathlib.Algebra.Order.Group.Abs

/-!
# Tracking rounding errors

`Near x r ε`: the float `x` is a number that differs from `r` by at most `ε`.
-/

open Outcome Fl Prog ObjectSpec ConvSpec

namespace Fl

/-- `x` is a number at a distance of at most `ε` from `r`. -/
def Near (x : Fl) (r ε : ℝ) : Prop := ∃ y, x = fin y ∧ |y - r| ≤ ε

theorem near_fin (r : ℝ) : Near (fin r) r 0 := ⟨r, rfl, by simp⟩

theorem Near.weaken {x : Fl} {r ε δ : ℝ} (h : Near x r ε) (hd : ε ≤ δ) : Near x r δ := by
  obtain ⟨y, h1, h2⟩ := h; exact ⟨y, h1, h2.trans hd⟩

theorem Near.nonneg {x : Fl} {r ε : ℝ} (h : Near x r ε) : 0 ≤ ε := by
  obtain ⟨y, h1, h2⟩ := h; exact (abs_nonneg _).trans h2

theorem Near.fmin {x y : Fl} {a b ε : ℝ} (hx : Near x a ε) (hy : Near y b ε) : Near (Fl.fmin x y) (min a b) ε := by
  obtain ⟨u, rfl, hu⟩ := hx; obtain ⟨v, rfl, hv⟩ := hy
  exact ⟨_, fmin_fin _ _, (abs_min_sub_min_le_max _ _ _ _).trans (max_le hu hv)⟩

theorem Near.fmax {x y : Fl} {a b ε : ℝ} (hx : Near x a ε) (hy : Near y b ε) : Near (Fl.fmax x y) (max a b) ε := by
  obtain ⟨u, rfl, hu⟩ := hx; obtain ⟨v, rfl, hv⟩ := hy
  exact ⟨_, fmax_fin _ _, (abs_max_sub_max_le_max _ _ _ _).trans (max_le hu hv)⟩

theorem Near.abs {x : Fl} {a ε : ℝ} (hx : Near x a ε) : Near (Fl.abs x) |a| ε := by
  obtain ⟨u, rfl, hu⟩ := hx
  exact ⟨_, abs_fin _, (abs_abs_sub_abs_le _ _).trans hu⟩

/-- Limiting to `0 … 1` does not increase the distance to a number in that range. -/
theorem Near.clamp01 {x : Fl} {a ε : ℝ} (hx : Near x a ε) (h0 : 0 ≤ a) (h1 : a ≤ 1) : Near (Color.clamp x 1 0) a ε := by
  have hx0 := hx.nonneg
  have : Near (Color.clamp x 1 0) (max (min a 1) 0) ε := (hx.fmin (by simpa using (near_fin 1).weaken hx0)).fmax (by simpa using (near_fin 0).weaken hx0)
  rwa [min_eq_left h1, max_eq_left h0] at this

variable [FloatModel] [SmallError]

theorem near_rnd {r : ℝ} (h : |r| ≤ 1000) : Near (rnd r) r (|r| / 1000000 + 1 / 1000000) := by
  obtain ⟨y, h1, h2⟩ := near r h
  exact ⟨y, h1, h2.trans (by linarith)⟩

/-- Rounding a number that is itself an approximation. -/
theorem near_rnd_of {s r ε M : ℝ} (h : |s - r| ≤ ε) (hr : |r| ≤ M) (hM : M + ε ≤ 1000) : Near (rnd s) r (ε + (M + ε + 1) / 1000000) := by
  have hs : |s| ≤ M + ε := by
    have := abs_add_le (s - r) r; rw [sub_add_cancel] at this; linarith
  obtain ⟨y, h1, h2⟩ := near_rnd (hs.trans hM)
  refine ⟨y, h1, ?_⟩
  have := abs_sub_le y s r
  have : |s| / 1000000 ≤ (M + ε) / 1000000 := by gcongr
  linarith

theorem Near.add {x y : Fl} {a b ε δ : ℝ} (hx : Near x a ε) (hy : Near y b δ) (M : ℝ) (hM : |a + b| ≤ M) (hb : M + (ε + δ) ≤ 1000) :
    Near (x + y) (a + b) (ε + δ + (M + (ε + δ) + 1) / 1000000) := by
  obtain ⟨u, rfl, hu⟩ := hx; obtain ⟨v, rfl, hv⟩ := hy
  rw [fin_add]
  refine near_rnd_of ?_ hM hb
  rw [show u + v - (a + b) = (u - a) + (v - b) by ring]
  exact (abs_add_le _ _).trans (add_le_add hu hv)

theorem Near.sub {x y : Fl} {a b ε δ : ℝ} (hx : Near x a ε) (hy : Near y b δ) (M : ℝ) (hM : |a - b| ≤ M) (hb : M + (ε + δ) ≤ 1000) :
    Near (x - y) (a - b) (ε + δ + (M + (ε + δ) + 1) / 1000000) := by
  obtain ⟨u, rfl, hu⟩ := hx; obtain ⟨v, rfl, hv⟩ := hy
  rw [fin_sub]
  refine near_rnd_of ?_ hM hb
  rw [show u - v - (a - b) = (u - a) - (v - b) by ring]
  exact (abs_sub _ _).trans (add_le_add hu hv)

theorem Near.mul {x y : Fl} {a b ε δ : ℝ} (hx : Near x a ε) (hy : Near y b δ) (A B : ℝ) (hA : |a| ≤ A) (hB : |b| ≤ B)
    (hb : A * B + (A * δ + B * ε + ε * δ) ≤ 1000) :
    Near (x * y) (a * b) ((A * δ + B * ε + ε * δ) + (A * B + (A * δ + B * ε + ε * δ) + 1) / 1000000) := by
  have hx0 := hx.nonneg; have hy0 := hy.nonneg
  obtain ⟨u, rfl, hu⟩ := hx; obtain ⟨v, rfl, hv⟩ := hy
  have hA0 := (abs_nonneg a).trans hA
  have hB0 := (abs_nonneg b).trans hB
  rw [fin_mul]
  refine near_rnd_of ?_ (by rw [abs_mul]; gcongr) hb
  rw [show u * v - a * b = a * (v - b) + b * (u - a) + (u - a) * (v - b) by ring]
  refine (abs_add_le _ _).trans (add_le_add ((abs_add_le _ _).trans (add_le_add ?_ ?_)) ?_) <;> rw [abs_mul] <;> gcongr

end Fl
