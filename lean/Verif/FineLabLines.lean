import Verif.FineLabTrip

/-!
# Colours near the gamut of a preset colour space stay within the limits of LAB
-/

open Fl ConvSpec LabGamut

namespace FineLab

theorem near_red {x y : ℝ} (x0 : 0 ≤ x) (y0 : 0 ≤ y) (y1 : y ≤ 1.00024) (h0 : x ≤ 2.64 * y + 0.00088) (h1 : x ≤ 2.24 * y + 0.03178) (h2 : x ≤ 0.42 * y + 0.59135) (h3 : x ≤ 0 * y + 1.00024) : labF x - labF y ≤ 0.2559 := by
  refine labF_gap x0 y0 (by norm_num) fun s s0 hs => ?_
  have s1 : s ≤ 1.0001 := cube_high (by rw [hs]; norm_num at *; linarith) (by norm_num)
  rw [← hs] at h0 h1 h2 h3
  rcases le_total s 0.181 with t | t
  · exact cube_step (a := 0) s0 t (by norm_num) (by norm_num) (by norm_num) h0 (by norm_num)
  have g := t
  rcases le_total s 0.315 with t | t
  · exact cube_step (a := 0.181) g t (by norm_num) (by norm_num) (by norm_num) h0 (by norm_num)
  have g := t
  rcases le_total s 0.412 with t | t
  · exact cube_step (a := 0.315) g t (by norm_num) (by norm_num) (by norm_num) h0 (by norm_num)
  have g := t
  rcases le_total s 0.491 with t | t
  · exact cube_step (a := 0.412) g t (by norm_num) (by norm_num) (by norm_num) h1 (by norm_num)
  have g := t
  rcases le_total s 0.555 with t | t
  · exact cube_step (a := 0.491) g t (by norm_num) (by norm_num) (by norm_num) h1 (by norm_num)
  have g := t
  rcases le_total s 0.607 with t | t
  · exact cube_step (a := 0.555) g t (by norm_num) (by norm_num) (by norm_num) h1 (by norm_num)
  have g := t
  rcases le_total s 0.648 with t | t
  · exact cube_step (a := 0.607) g t (by norm_num) (by norm_num) (by norm_num) h1 (by norm_num)
  have g := t
  rcases le_total s 0.704 with t | t
  · exact cube_step (a := 0.648) g t (by norm_num) (by norm_num) (by norm_num) h2 (by norm_num)
  have g := t
  rcases le_total s 0.887 with t | t
  · exact cube_step (a := 0.704) g t (by norm_num) (by norm_num) (by norm_num) h2 (by norm_num)
  have g := t
  exact cube_step (a := 0.887) g s1 (by norm_num) (by norm_num) (by norm_num) h3 (by norm_num)

theorem near_green {y x : ℝ} (y0 : 0 ≤ y) (x0 : 0 ≤ x) (x1 : x ≤ 1.00024) (h0 : y ≤ 2.48 * x + 0.00084) (h1 : y ≤ 0.45 * x + 0.56635) (h2 : y ≤ 0 * x + 1.00024) : labF y - labF x ≤ 0.2559 := by
  refine labF_gap y0 x0 (by norm_num) fun s s0 hs => ?_
  have s1 : s ≤ 1.0001 := cube_high (by rw [hs]; norm_num at *; linarith) (by norm_num)
  rw [← hs] at h0 h1 h2
  rcases le_total s 0.185 with t | t
  · exact cube_step (a := 0) s0 t (by norm_num) (by norm_num) (by norm_num) h0 (by norm_num)
  have g := t
  rcases le_total s 0.324 with t | t
  · exact cube_step (a := 0.185) g t (by norm_num) (by norm_num) (by norm_num) h0 (by norm_num)
  have g := t
  rcases le_total s 0.427 with t | t
  · exact cube_step (a := 0.324) g t (by norm_num) (by norm_num) (by norm_num) h0 (by norm_num)
  have g := t
  rcases le_total s 0.504 with t | t
  · exact cube_step (a := 0.427) g t (by norm_num) (by norm_num) (by norm_num) h0 (by norm_num)
  have g := t
  rcases le_total s 0.561 with t | t
  · exact cube_step (a := 0.504) g t (by norm_num) (by norm_num) (by norm_num) h0 (by norm_num)
  have g := t
  rcases le_total s 0.603 with t | t
  · exact cube_step (a := 0.561) g t (by norm_num) (by norm_num) (by norm_num) h0 (by norm_num)
  have g := t
  rcases le_total s 0.634 with t | t
  · exact cube_step (a := 0.603) g t (by norm_num) (by norm_num) (by norm_num) h0 (by norm_num)
  have g := t
  rcases le_total s 0.674 with t | t
  · exact cube_step (a := 0.634) g t (by norm_num) (by norm_num) (by norm_num) h1 (by norm_num)
  have g := t
  rcases le_total s 0.808 with t | t
  · exact cube_step (a := 0.674) g t (by norm_num) (by norm_num) (by norm_num) h1 (by norm_num)
  have g := t
  exact cube_step (a := 0.808) g s1 (by norm_num) (by norm_num) (by norm_num) h2 (by norm_num)

theorem near_yellow {y z : ℝ} (y0 : 0 ≤ y) (z0 : 0 ≤ z) (z1 : z ≤ 1.00024) (h0 : y ≤ 16.7 * z + 0.23325) (h1 : y ≤ 0.08 * z + 0.92126) (h2 : y ≤ 0 * z + 1.00024) : labF y - labF z ≤ 0.6399 := by
  refine labF_gap y0 z0 (by norm_num) fun s s0 hs => ?_
  have s1 : s ≤ 1.0001 := cube_high (by rw [hs]; norm_num at *; linarith) (by norm_num)
  rw [← hs] at h0 h1 h2
  rcases le_total s 0.119 with t | t
  · exact cube_step (a := 0) s0 t (by norm_num) (by norm_num) (by norm_num) h0 (by norm_num)
  have g := t
  rcases le_total s 0.23 with t | t
  · exact cube_step (a := 0.119) g t (by norm_num) (by norm_num) (by norm_num) h0 (by norm_num)
  have g := t
  rcases le_total s 0.294 with t | t
  · exact cube_step (a := 0.23) g t (by norm_num) (by norm_num) (by norm_num) h0 (by norm_num)
  have g := t
  rcases le_total s 0.326 with t | t
  · exact cube_step (a := 0.294) g t (by norm_num) (by norm_num) (by norm_num) h0 (by norm_num)
  have g := t
  rcases le_total s 0.341 with t | t
  · exact cube_step (a := 0.326) g t (by norm_num) (by norm_num) (by norm_num) h0 (by norm_num)
  have g := t
  rcases le_total s 0.655 with t | t
  · exact cube_step (a := 0.341) g t (by norm_num) (by norm_num) (by norm_num) h1 (by norm_num)
  have g := t
  exact cube_step (a := 0.655) g s1 (by norm_num) (by norm_num) (by norm_num) h2 (by norm_num)

theorem near_blue {z y : ℝ} (z0 : 0 ≤ z) (y0 : 0 ≤ y) (y1 : y ≤ 1.00024) (h0 : z ≤ 12.53 * y + 0.00325) (h1 : z ≤ 0 * y + 1.00024) : labF z - labF y ≤ 0.6399 := by
  refine labF_gap z0 y0 (by norm_num) fun s s0 hs => ?_
  have s1 : s ≤ 1.0001 := cube_high (by rw [hs]; norm_num at *; linarith) (by norm_num)
  rw [← hs] at h0 h1
  rcases le_total s 0.274 with t | t
  · exact cube_step (a := 0) s0 t (by norm_num) (by norm_num) (by norm_num) h0 (by norm_num)
  have g := t
  rcases le_total s 0.392 with t | t
  · exact cube_step (a := 0.274) g t (by norm_num) (by norm_num) (by norm_num) h0 (by norm_num)
  have g := t
  exact cube_step (a := 0.392) g s1 (by norm_num) (by norm_num) (by norm_num) h1 (by norm_num)

/-- Colours at most 2.4e-4 away from the gamut. -/
theorem near_lines {x y z X Y Z : ℝ} (h : Lines X Y Z) (x0 : 0 ≤ x) (y0 : 0 ≤ y) (z0 : 0 ≤ z) (hx : |x - X| ≤ 2.4e-4) (hy : |y - Y| ≤ 2.4e-4) (hz : |z - Z| ≤ 2.4e-4) :
    |labF x - labF y| ≤ 0.2559 ∧ |labF y - labF z| ≤ 0.6399 := by
  have h1 := h.x1; have h2 := h.y1; have h3 := h.z1
  have r0 := h.red0; have r1 := h.red1; have r2 := h.red2; have r3 := h.red3
  have g0 := h.green0; have g1 := h.green1; have g2 := h.green2
  have e0 := h.yellow0; have e1 := h.yellow1; have e2 := h.yellow2
  have b0 := h.blue0; have b1 := h.blue1
  rw [abs_le] at hx hy hz
  norm_num at hx hy hz r0 r1 r2 r3 g0 g1 g2 e0 e1 e2 b0 b1
  have red := near_red x0 y0 (by norm_num; linarith) (by norm_num; linarith) (by norm_num; linarith) (by norm_num; linarith) (by norm_num; linarith)
  have green := near_green y0 x0 (by norm_num; linarith) (by norm_num; linarith) (by norm_num; linarith) (by norm_num; linarith)
  have yellow := near_yellow y0 z0 (by norm_num; linarith) (by norm_num; linarith) (by norm_num; linarith) (by norm_num; linarith)
  have blue := near_blue z0 y0 (by norm_num; linarith) (by norm_num; linarith) (by norm_num; linarith)
  rw [abs_le, abs_le]
  refine ⟨⟨?_, ?_⟩, ?_, ?_⟩ <;> linarith

end FineLab
