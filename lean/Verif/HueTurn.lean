import Verif.FormulaLemmas
import Verif.Props.Combinations
import Verif.ComplementLemmas

/-!
# Lemmas for C152 and C153: turning, mirroring and stretching hues
-/

open FormulaSpec CombineSpec

namespace Formula

theorem angle_range (x : ℝ) : 0 ≤ angle x ∧ angle x < 360 := by
  have h0 := Int.fract_nonneg (x / 360)
  have h1 := Int.fract_lt_one (x / 360)
  rw [angle]
  constructor <;> linarith

theorem angle_of {x v : ℝ} (m : ℤ) (h : x = v + 360 * m) (v0 : 0 ≤ v) (v1 : v < 360) : angle x = v := by
  have : x / 360 = v / 360 + m := by rw [h]; ring
  rw [angle, this, Int.fract_add_intCast, Int.fract_eq_self.mpr ⟨by positivity, by linarith⟩]
  ring

theorem hex_angle (k : Hue.Sector) {u x : ℝ} (m : ℤ) (u0 : 0 ≤ u) (u1 : u ≤ 1) (h : x = k.hue u + 360 * m) :
    hexRed (angle x) = k.red u ∧ hexGreen (angle x) = k.green u ∧ hexBlue (angle x) = k.blue u := by
  by_cases hF : k = .F ∧ u = 0
  · obtain ⟨rfl, rfl⟩ := hF
    rw [angle_of (v := Hue.Sector.hue .A 0) (m + 1) (by rw [h]; simp only [Hue.Sector.hue]; push_cast; ring) (by norm_num [Hue.Sector.hue]) (by norm_num [Hue.Sector.hue])]
    exact hex_sector .A le_rfl zero_le_one
  · have h1 : k.hue u < 360 := by
      cases k <;> simp only [Hue.Sector.hue] <;> try linarith
      have : 0 < u := lt_of_le_of_ne u0 fun e => hF ⟨rfl, e.symm⟩
      linarith
    have h0 : 0 ≤ k.hue u := by
      cases k <;> simp only [Hue.Sector.hue] <;> linarith
    rw [angle_of m h h0 h1]
    exact hex_sector k u0 u1

/-- Turning by 120 degrees moves every channel on by one. -/
theorem hex_third {H : ℝ} (h0 : 0 ≤ H) (h1 : H < 360) :
    hexRed (angle (H + 120)) = hexBlue H ∧ hexGreen (angle (H + 120)) = hexRed H ∧ hexBlue (angle (H + 120)) = hexGreen H := by
  obtain ⟨k, u, u0, u1, rfl, e1, e2, e3⟩ := sector_of h0 h1.le
  rw [← e1, ← e2, ← e3]
  cases k
  · exact hex_angle .C 0 u0 u1 (by simp only [Hue.Sector.hue]; push_cast; ring)
  · exact hex_angle .D 0 u0 u1 (by simp only [Hue.Sector.hue]; push_cast; ring)
  · exact hex_angle .E 0 u0 u1 (by simp only [Hue.Sector.hue]; push_cast; ring)
  · exact hex_angle .F 0 u0 u1 (by simp only [Hue.Sector.hue]; push_cast; ring)
  · exact hex_angle .A 1 u0 u1 (by simp only [Hue.Sector.hue]; push_cast; ring)
  · exact hex_angle .B 1 u0 u1 (by simp only [Hue.Sector.hue]; push_cast; ring)

/-- Turning by 180 degrees reflects every channel. -/
theorem hex_half {H : ℝ} (h0 : 0 ≤ H) (h1 : H < 360) :
    hexRed (angle (H + 180)) = 1 - hexRed H ∧ hexGreen (angle (H + 180)) = 1 - hexGreen H ∧ hexBlue (angle (H + 180)) = 1 - hexBlue H := by
  obtain ⟨k, u, u0, u1, rfl, e1, e2, e3⟩ := sector_of h0 h1.le
  rw [← e1, ← e2, ← e3]
  obtain ⟨c1, c2, c3⟩ := Hue.opp_channels k u
  rw [← c1, ← c2, ← c3]
  rcases Hue.opp_hue k u with h | h
  · exact hex_angle k.opp 0 (by linarith) (by linarith) (by rw [h]; simp)
  · exact hex_angle k.opp 1 (by linarith) (by linarith) (by rw [h]; push_cast; ring)

/-- The opposite hue exchanges green and blue. -/
theorem hex_mirror {H : ℝ} (h0 : 0 ≤ H) (h1 : H < 360) :
    hexRed (angle (-H)) = hexRed H ∧ hexGreen (angle (-H)) = hexBlue H ∧ hexBlue (angle (-H)) = hexGreen H := by
  obtain ⟨k, u, u0, u1, rfl, e1, e2, e3⟩ := sector_of h0 h1.le
  rw [← e1, ← e2, ← e3]
  cases k
  · exact hex_angle .F (-1) u0 u1 (by simp only [Hue.Sector.hue]; push_cast; ring)
  · exact hex_angle .E (-1) u0 u1 (by simp only [Hue.Sector.hue]; push_cast; ring)
  · exact hex_angle .D (-1) u0 u1 (by simp only [Hue.Sector.hue]; push_cast; ring)
  · exact hex_angle .C (-1) u0 u1 (by simp only [Hue.Sector.hue]; push_cast; ring)
  · exact hex_angle .B (-1) u0 u1 (by simp only [Hue.Sector.hue]; push_cast; ring)
  · exact hex_angle .A (-1) u0 u1 (by simp only [Hue.Sector.hue]; push_cast; ring)

theorem top_ne {r g b : ℝ} (h : ¬ (r = g ∧ g = b)) : top r g b ≠ bot r g b := by
  intro e
  obtain ⟨rfl, rfl⟩ := Hue.grey_of e
  exact h ⟨rfl, rfl⟩

theorem top_rotate (r g b : ℝ) : top b r g = top r g b := by
  unfold top; rw [max_assoc, max_comm]
theorem bot_rotate (r g b : ℝ) : bot b r g = bot r g b := by
  unfold bot; rw [min_assoc, min_comm]
theorem top_swap (r g b : ℝ) : top r b g = top r g b := by
  unfold top; rw [max_assoc, max_comm b, ← max_assoc]
theorem bot_swap (r g b : ℝ) : bot r b g = bot r g b := by
  unfold bot; rw [min_assoc, min_comm b, ← min_assoc]
theorem top_negative (r g b : ℝ) : top (1 - r) (1 - g) (1 - b) = 1 - bot r g b := by
  unfold top bot; rw [max_sub_sub_left, max_sub_sub_left]
theorem bot_negative (r g b : ℝ) : bot (1 - r) (1 - g) (1 - b) = 1 - top r g b := by
  unfold top bot; rw [min_sub_sub_left, min_sub_sub_left]
theorem top_affine {k : ℝ} (hk : 0 ≤ k) (m r g b : ℝ) : top (k * r + m) (k * g + m) (k * b + m) = k * top r g b + m := by
  unfold top; rw [max_add_add_right, max_add_add_right, mul_max_of_nonneg _ _ hk, mul_max_of_nonneg _ _ hk]
theorem bot_affine {k : ℝ} (hk : 0 ≤ k) (m r g b : ℝ) : bot (k * r + m) (k * g + m) (k * b + m) = k * bot r g b + m := by
  unfold bot; rw [min_add_add_right, min_add_add_right, mul_min_of_nonneg _ _ hk, mul_min_of_nonneg _ _ hk]

variable {r g b H : ℝ}

theorem hueOf_rotate (h : HueOf r g b H) (hne : ¬ (r = g ∧ g = b)) : HueOf b r g (angle (H + 120)) := by
  obtain ⟨e1, e2, e3⟩ := hex_third h.lo h.hi
  refine ⟨(angle_range _).1, (angle_range _).2, ?_, ?_, ?_, fun e => absurd ?_ (top_ne hne)⟩
  · rw [top_rotate, bot_rotate, e1]; exact h.blue
  · rw [top_rotate, bot_rotate, e2]; exact h.red
  · rw [top_rotate, bot_rotate, e3]; exact h.green
  · rwa [top_rotate, bot_rotate] at e

theorem hueOf_swap (h : HueOf r g b H) (hne : ¬ (r = g ∧ g = b)) : HueOf r b g (angle (-H)) := by
  obtain ⟨e1, e2, e3⟩ := hex_mirror h.lo h.hi
  refine ⟨(angle_range _).1, (angle_range _).2, ?_, ?_, ?_, fun e => absurd ?_ (top_ne hne)⟩
  · rw [top_swap, bot_swap, e1]; exact h.red
  · rw [top_swap, bot_swap, e2]; exact h.blue
  · rw [top_swap, bot_swap, e3]; exact h.green
  · rwa [top_swap, bot_swap] at e

theorem hueOf_negative (h : HueOf r g b H) (hne : ¬ (r = g ∧ g = b)) : HueOf (1 - r) (1 - g) (1 - b) (angle (H + 180)) := by
  obtain ⟨e1, e2, e3⟩ := hex_half h.lo h.hi
  refine ⟨(angle_range _).1, (angle_range _).2, ?_, ?_, ?_, fun e => absurd ?_ (top_ne hne)⟩
  · rw [top_negative, bot_negative, e1]; linarith [h.red]
  · rw [top_negative, bot_negative, e2]; linarith [h.green]
  · rw [top_negative, bot_negative, e3]; linarith [h.blue]
  · rw [top_negative, bot_negative] at e; linarith

theorem hueOf_affine {k : ℝ} (hk : 0 < k) (m : ℝ) (h : HueOf r g b H) : HueOf (k * r + m) (k * g + m) (k * b + m) H := by
  refine ⟨h.lo, h.hi, ?_, ?_, ?_, fun e => h.grey ?_⟩
  · rw [top_affine hk.le, bot_affine hk.le]; linear_combination k * h.red
  · rw [top_affine hk.le, bot_affine hk.le]; linear_combination k * h.green
  · rw [top_affine hk.le, bot_affine hk.le]; linear_combination k * h.blue
  · rw [top_affine hk.le, bot_affine hk.le] at e
    exact mul_left_cancel₀ hk.ne' (by linarith)

end Formula
