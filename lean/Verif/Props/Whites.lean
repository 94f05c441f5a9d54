import Verif.Props.Spaces
import Verif.Props.SingleHcy

/-!
# Preset white points and the standard illuminants (C185)

The theorems hold for every arithmetic with the precision of `float`.
-/

open Outcome Fl HcyFine

namespace WhiteSpec

/-- The published chromaticity (x, y) of the CIE standard illuminants, for the 2 degree observer of 1931 and the 10 degree observer of 1964. -/
noncomputable def published : WhitePreset → ℝ × ℝ
  | .D50_2Degree => (0.34567, 0.35850)
  | .D55_2Degree => (0.33242, 0.34743)
  | .D65_2Degree => (0.31271, 0.32902)
  | .D75_2Degree => (0.29902, 0.31485)
  | .A_2Degree => (0.44757, 0.40745)
  | .B_2Degree => (0.34842, 0.35161)
  | .C_2Degree => (0.31006, 0.31616)
  | .E_2Degree => (0.33333, 0.33333)
  | .F1_2Degree => (0.31310, 0.33727)
  | .F2_2Degree => (0.37208, 0.37529)
  | .F3_2Degree => (0.40910, 0.39430)
  | .F4_2Degree => (0.44018, 0.40329)
  | .F5_2Degree => (0.31379, 0.34531)
  | .F6_2Degree => (0.37790, 0.38835)
  | .F7_2Degree => (0.31292, 0.32933)
  | .F8_2Degree => (0.34588, 0.35875)
  | .F9_2Degree => (0.37417, 0.37281)
  | .F10_2Degree => (0.34609, 0.35986)
  | .F11_2Degree => (0.38052, 0.37713)
  | .F12_2Degree => (0.43695, 0.40441)
  | .D50_10Degree => (0.34773, 0.35952)
  | .D55_10Degree => (0.33411, 0.34877)
  | .D65_10Degree => (0.31382, 0.33100)
  | .D75_10Degree => (0.29968, 0.31740)
  | .A_10Degree => (0.45117, 0.40594)
  | .B_10Degree => (0.34980, 0.35270)
  | .C_10Degree => (0.31039, 0.31905)
  | .E_10Degree => (0.33333, 0.33333)
  | .F1_10Degree => (0.31811, 0.33559)
  | .F2_10Degree => (0.37925, 0.36733)
  | .F3_10Degree => (0.41761, 0.38324)
  | .F4_10Degree => (0.44920, 0.39074)
  | .F5_10Degree => (0.31975, 0.34246)
  | .F6_10Degree => (0.38660, 0.37847)
  | .F7_10Degree => (0.31569, 0.32960)
  | .F8_10Degree => (0.34902, 0.35939)
  | .F9_10Degree => (0.37829, 0.37045)
  | .F10_10Degree => (0.35090, 0.35444)
  | .F11_10Degree => (0.38541, 0.37123)
  | .F12_10Degree => (0.44256, 0.39717)

/-- The chromaticities in the code. -/
theorem chrom_near (p : WhitePreset) : |p.literals.2.2.2.1 - (published p).1| ≤ 0.0004 ∧ |p.literals.2.2.2.2 - (published p).2| ≤ 0.0004 := by
  cases p <;> simp only [WhitePreset.literals, published] <;> refine ⟨?_, ?_⟩ <;> rw [abs_le] <;> constructor <;> norm_num

theorem chrom_le (p : WhitePreset) : |p.literals.2.2.2.1| ≤ 1 ∧ |p.literals.2.2.2.2| ≤ 1 := by
  cases p <;> simp only [WhitePreset.literals] <;> refine ⟨?_, ?_⟩ <;> rw [abs_le] <;> constructor <;> norm_num

theorem tri_le (p : WhitePreset) : |p.literals.1| ≤ 2 ∧ p.literals.2.1 = 1 ∧ |p.literals.2.2.1| ≤ 2 := by
  cases p <;> simp only [WhitePreset.literals] <;> refine ⟨?_, trivial, ?_⟩ <;> rw [abs_le] <;> constructor <;> norm_num

/-- The tristimulus values in the code. -/
theorem tri_near (p : WhitePreset) (h : ¬ BadWhite p) :
    |p.literals.1 - (published p).1 / (published p).2| ≤ 0.0013 ∧ |p.literals.2.2.1 - (1 - (published p).1 - (published p).2) / (published p).2| ≤ 0.0013 := by
  cases p <;> simp [BadWhite] at h <;> simp only [WhitePreset.literals, published] <;> refine ⟨?_, ?_⟩ <;> rw [abs_le] <;> constructor <;> norm_num

theorem tri_tenth (p : WhitePreset) (h : BadWhite p) : |p.literals.1 - (published p).1 / (published p).2 / 10| ≤ 0.0002 ∧ 0.9 < (published p).1 / (published p).2 := by
  cases p <;> simp [BadWhite] at h <;> simp only [WhitePreset.literals, published] <;> (refine ⟨?_, ?_⟩ <;> [(rw [abs_le]; constructor <;> norm_num); norm_num])

theorem lit_near [FloatModel] [FineError] {v : ℝ} (h : |v| ≤ 2) : Near (lit v) v 1e-6 := rounded (s := v) (ε := 0) (M := 2) (by simp) h _ (by norm_num) (by norm_num)

end WhiteSpec

open WhiteSpec

section
variable [FloatModel] [FineError]

/-- **C185** Every preset has the chromaticity of the illuminant and the observer it is named after. -/
theorem C185_chromaticity (p : WhitePreset) : ∃ x y z : ℝ, p.create.chrom = ⟨fin x, fin y, fin z⟩ ∧ |x - (published p).1| ≤ 0.0005 ∧ |y - (published p).2| ≤ 0.0005 ∧
    |z - (1 - (published p).1 - (published p).2)| ≤ 0.001 := by
  obtain ⟨a1, a2⟩ := chrom_near p
  obtain ⟨b1, b2⟩ := chrom_le p
  have n1 := lit_near (v := p.literals.2.2.2.1) (by linarith)
  have n2 := lit_near (v := p.literals.2.2.2.2) (by linarith)
  have c1 := abs_le.mp b1; have c2 := abs_le.mp b2
  have n3 := nsub (show Near (1 : Fl) 1 0 by rw [one_def]; exact near_fin 1) n1 2 2e-6 (by rw [abs_le]; constructor <;> linarith) (by norm_num) (by norm_num)
  have n4 := nsub n3 n2 3 4e-6 (by rw [abs_le]; constructor <;> linarith) (by norm_num) (by norm_num)
  obtain ⟨x, ex, hx⟩ := n1
  obtain ⟨y, ey, hy⟩ := n2
  obtain ⟨z, ez, hz⟩ := n4
  refine ⟨x, y, z, ?_, ?_, ?_, ?_⟩
  · simp only [WhitePreset.create, WhitePoint.make]
    rw [ez, ex, ey]
  · rw [abs_le] at *; constructor <;> linarith
  · rw [abs_le] at *; constructor <;> linarith
  · rw [abs_le] at *; constructor <;> linarith

/-- **C185** 24 presets have the tristimulus values of their illuminant, for a luminance of 1. -/
theorem C185_tristimulus_partial (p : WhitePreset) (h : ¬ BadWhite p) : ∃ X Y Z : ℝ, p.create.tri = ⟨fin X, fin Y, fin Z⟩ ∧ |X - (published p).1 / (published p).2| ≤ 0.0015 ∧ |Y - 1| ≤ 1e-6 ∧
    |Z - (1 - (published p).1 - (published p).2) / (published p).2| ≤ 0.0015 := by
  obtain ⟨a1, a2⟩ := tri_near p h
  obtain ⟨b1, b2, b3⟩ := tri_le p
  obtain ⟨X, ex, hX⟩ := lit_near b1
  obtain ⟨Y, ey, hY⟩ := lit_near (v := 1) (by norm_num)
  obtain ⟨Z, ez, hZ⟩ := lit_near b3
  refine ⟨X, Y, Z, ?_, ?_, hY, ?_⟩
  · simp only [WhitePreset.create, WhitePoint.make]
    rw [b2, ex, ey, ez]
  · rw [abs_le] at *; constructor <;> linarith
  · rw [abs_le] at *; constructor <;> linarith

/-- **C185 violated** In the other 16 presets X is a tenth of the X of the illuminant. -/
theorem C185_tenth_violated (p : WhitePreset) (h : BadWhite p) : ∃ X Y Z : ℝ, p.create.tri = ⟨fin X, fin Y, fin Z⟩ ∧ |X - (published p).1 / (published p).2 / 10| ≤ 0.0003 ∧
    X + 0.8 < (published p).1 / (published p).2 := by
  obtain ⟨a1, a2⟩ := tri_tenth p h
  obtain ⟨b1, b2, b3⟩ := tri_le p
  obtain ⟨X, ex, hX⟩ := lit_near b1
  obtain ⟨Y, ey, hY⟩ := lit_near (v := 1) (by norm_num)
  obtain ⟨Z, ez, hZ⟩ := lit_near b3
  refine ⟨X, Y, Z, ?_, ?_, ?_⟩
  · simp only [WhitePreset.create, WhitePoint.make]
    rw [b2, ex, ey, ez]
  · rw [abs_le] at *; constructor <;> linarith
  · rw [abs_le] at *; linarith

end

/-- Daylight and its tristimulus values in binary32. -/
example : letI := Binary32.binary32
    ∃ X Y Z : ℝ, (WhitePreset.create .D65_2Degree).tri = ⟨fin X, fin Y, fin Z⟩ ∧ |X - 0.31271 / 0.32902| ≤ 0.0015 := by
  letI := Binary32.binary32
  letI := Binary32.binary32_fine
  obtain ⟨X, Y, Z, e, h, -⟩ := C185_tristimulus_partial .D65_2Degree (by simp [BadWhite])
  exact ⟨X, Y, Z, e, by simpa [published] using h⟩
/-- The light bulb has X = 0.11 and not 1.1. -/
example : BadWhite .A_2Degree := by simp [BadWhite]
