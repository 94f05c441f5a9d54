import Verif.Mat3
import Verif.Props.Spaces

/-!
# Numbers about the preset colour spaces

For every preset: magnitudes of the coefficients, lower bounds of determinants and bounds of the weights of the primaries.  The bounds are stated and proved here; how the numbers
were found does not matter.
-/

open Fl

namespace Fine

/-- Magnitudes of the coordinates of the primaries, at least 0.026. -/
noncomputable def mag : SpacePreset → Fin 3 → Fin 3 → ℝ
  | .sRGB => ![![0.64, 0.3, 0.15], ![0.33, 0.6, 0.06], ![0.03, 0.1, 0.79]]
  | .adobeRGB => ![![0.64, 0.21, 0.15], ![0.33, 0.71, 0.06], ![0.03, 0.08, 0.79]]
  | .pal_secam => ![![0.64, 0.29, 0.15], ![0.33, 0.6, 0.06], ![0.03, 0.11, 0.79]]
  | .americaNTSC => ![![0.63, 0.31, 0.155], ![0.34, 0.595, 0.07], ![0.03, 0.095, 0.775]]
  | .oldNTSC => ![![0.67, 0.21, 0.14], ![0.33, 0.71, 0.08], ![0.026, 0.08, 0.78]]
  | .appleRGB => ![![0.625, 0.28, 0.155], ![0.34, 0.595, 0.07], ![0.035, 0.125, 0.775]]
  | .dci_p3 => ![![0.68, 0.265, 0.15], ![0.32, 0.69, 0.06], ![0.026, 0.045, 0.79]]
  | .uhdtv => ![![0.708, 0.17, 0.131], ![0.292, 0.797, 0.046], ![0.026, 0.033, 0.823]]
  | .adobeWideGammutRGB => ![![0.735, 0.115, 0.157], ![0.265, 0.826, 0.026], ![0.026, 0.059, 0.825]]
  | .rommRGB => ![![0.7347, 0.1596, 0.0366], ![0.2653, 0.8404, 0.026], ![0.026, 0.026, 0.9633]]
  | .bestRGB => ![![0.7347, 0.215, 0.13], ![0.2653, 0.775, 0.035], ![0.026, 0.026, 0.835]]
  | .betaRGB => ![![0.6888, 0.1986, 0.1265], ![0.3112, 0.7551, 0.0352], ![0.026, 0.0463, 0.8383]]
  | .bruceRGB => ![![0.64, 0.28, 0.15], ![0.33, 0.65, 0.06], ![0.03, 0.07, 0.79]]
  | .colorMatchRGB => ![![0.63, 0.295, 0.15], ![0.34, 0.605, 0.075], ![0.03, 0.1, 0.775]]
  | .donRGB4 => ![![0.696, 0.215, 0.13], ![0.3, 0.765, 0.035], ![0.026, 0.026, 0.835]]
  | .ektaSpacePS5 => ![![0.695, 0.26, 0.11], ![0.305, 0.7, 0.026], ![0.026, 0.04, 0.885]]
  | .ProPhotoRGB => ![![0.7347, 0.1596, 0.0366], ![0.2653, 0.8404, 0.026], ![0.026, 0.026, 0.9633]]
  | .SMPTE_C_RGB => ![![0.63, 0.31, 0.155], ![0.34, 0.595, 0.07], ![0.03, 0.095, 0.775]]
  | .cieRGB => ![![0.7347, 0.2738, 0.1666], ![0.2653, 0.7174, 0.026], ![0.026, 0.026, 0.8245]]
  | .cieXYZ => ![![1, 0.026, 0.026], ![0.026, 1, 0.026], ![0.026, 0.026, 1]]

/-- Below the determinant of the primaries. -/
noncomputable def det : SpacePreset → ℝ
  | .sRGB => 0.2241
  | .adobeRGB => 0.3023
  | .pal_secam => 0.2268
  | .americaNTSC => 0.2075
  | .oldNTSC => 0.3164
  | .appleRGB => 0.213
  | .dci_p3 => 0.304
  | .uhdtv => 0.4237
  | .adobeWideGammutRGB => 0.4773
  | .rommRGB => 0.5539
  | .bestRGB => 0.4279
  | .betaRGB => 0.3849
  | .bruceRGB => 0.254
  | .colorMatchRGB => 0.2159
  | .donRGB4 => 0.3906
  | .ektaSpacePS5 => 0.3615
  | .ProPhotoRGB => 0.5539
  | .SMPTE_C_RGB => 0.2075
  | .cieRGB => 0.375
  | .cieXYZ => 1

/-- Above the weights of the primaries, cancellation not counted. -/
noncomputable def wide : SpacePreset → Fin 3 → ℝ
  | .sRGB => ![3.6849, 3.8166, 2.8888]
  | .adobeRGB => ![2.796, 2.8293, 2.2264]
  | .pal_secam => ![3.6125, 3.7712, 2.8793]
  | .americaNTSC => ![3.9692, 4.0999, 3.083]
  | .oldNTSC => ![2.7237, 2.8405, 2.3623]
  | .appleRGB => ![3.778, 3.9793, 3.083]
  | .dci_p3 => ![2.8511, 2.8932, 2.2087]
  | .uhdtv => ![2.1036, 2.107, 1.7113]
  | .adobeWideGammutRGB => ![1.8273, 1.827, 1.2743]
  | .rommRGB => ![1.7417, 1.7685, 1.0749]
  | .bestRGB => ![2.0965, 2.0589, 1.3266]
  | .betaRGB => ![2.2574, 2.301, 1.429]
  | .bruceRGB => ![3.3393, 3.3673, 2.5482]
  | .colorMatchRGB => ![3.6873, 3.8447, 2.4057]
  | .donRGB4 => ![2.2734, 2.251, 1.39]
  | .ektaSpacePS5 => ![2.495, 2.549, 1.4681]
  | .ProPhotoRGB => ![1.7417, 1.7685, 1.0749]
  | .SMPTE_C_RGB => ![3.9692, 4.0999, 3.083]
  | .cieRGB => ![0.8053, 1.7024, 0.2367]
  | .cieXYZ => ![0.1295, 1.0061, 0.1295]

/-- Below the magnitudes of the weights of the primaries. -/
noncomputable def low : SpacePreset → Fin 3 → ℝ
  | .sRGB => ![0.6443, 1.1919, 1.2028]
  | .adobeRGB => ![0.901, 0.8836, 1.2545]
  | .pal_secam => ![0.6727, 1.1778, 1.1886]
  | .americaNTSC => ![0.6246, 1.1783, 1.2362]
  | .oldNTSC => ![0.9057, 0.8262, 1.431]
  | .appleRGB => ![0.7194, 1.1295, 1.1902]
  | .dci_p3 => ![0.7155, 1.0025, 1.3211]
  | .uhdtv => ![0.8996, 0.8507, 1.2888]
  | .adobeWideGammutRGB => ![0.9742, 0.8776, 0.9373]
  | .rommRGB => ![1.0856, 0.847, 0.8565]
  | .bestRGB => ![0.8611, 0.9514, 0.9767]
  | .betaRGB => ![0.9745, 0.879, 0.9357]
  | .bruceRGB => ![0.7302, 1.0516, 1.2573]
  | .colorMatchRGB => ![0.8084, 1.0878, 0.8929]
  | .donRGB4 => ![0.9278, 0.8993, 0.9621]
  | .ektaSpacePS5 => ![0.8545, 1.0499, 0.8848]
  | .ProPhotoRGB => ![1.0856, 0.847, 0.8565]
  | .SMPTE_C_RGB => ![0.6246, 1.1783, 1.2362]
  | .cieRGB => ![0.4715, 1.567, 0.1045]
  | .cieXYZ => ![0.1, 1, 0.1]

/-- Above the magnitudes of the weights of the primaries. -/
noncomputable def high : SpacePreset → Fin 3 → ℝ
  | .sRGB => ![0.6444, 1.192, 1.2029]
  | .adobeRGB => ![0.9011, 0.8837, 1.2546]
  | .pal_secam => ![0.6728, 1.1779, 1.1887]
  | .americaNTSC => ![0.6247, 1.1784, 1.2363]
  | .oldNTSC => ![0.9058, 0.8263, 1.4311]
  | .appleRGB => ![0.7195, 1.1296, 1.1903]
  | .dci_p3 => ![0.7156, 1.0026, 1.3212]
  | .uhdtv => ![0.8997, 0.8508, 1.2889]
  | .adobeWideGammutRGB => ![0.9743, 0.8777, 0.9374]
  | .rommRGB => ![1.0857, 0.8471, 0.8566]
  | .bestRGB => ![0.8612, 0.9515, 0.9768]
  | .betaRGB => ![0.9746, 0.8791, 0.9358]
  | .bruceRGB => ![0.7303, 1.0517, 1.2574]
  | .colorMatchRGB => ![0.8085, 1.0879, 0.893]
  | .donRGB4 => ![0.9279, 0.8994, 0.9622]
  | .ektaSpacePS5 => ![0.8546, 1.05, 0.8849]
  | .ProPhotoRGB => ![1.0857, 0.8471, 0.8566]
  | .SMPTE_C_RGB => ![0.6247, 1.1784, 1.2363]
  | .cieRGB => ![0.4716, 1.5671, 0.1046]
  | .cieXYZ => ![0.1, 1, 0.1]

/-- Below the determinant of the RGB to XYZ matrix. -/
noncomputable def det2 : SpacePreset → ℝ
  | .sRGB => 0.20666
  | .adobeRGB => 0.30157
  | .pal_secam => 0.21325
  | .americaNTSC => 0.18845
  | .oldNTSC => 0.33843
  | .appleRGB => 0.20566
  | .dci_p3 => 0.28773
  | .uhdtv => 0.41754
  | .adobeWideGammutRGB => 0.38218
  | .rommRGB => 0.43591
  | .bestRGB => 0.34208
  | .betaRGB => 0.3082
  | .bruceRGB => 0.24488
  | .colorMatchRGB => 0.16924
  | .donRGB4 => 0.31325
  | .ektaSpacePS5 => 0.28665
  | .ProPhotoRGB => 0.43591
  | .SMPTE_C_RGB => 0.18845
  | .cieRGB => 0.02886
  | .cieXYZ => 0.00997

/-- How far below zero rounding may take a coefficient of the RGB to XYZ matrix. -/
noncomputable def neg : SpacePreset → ℝ
  | .sRGB => 0
  | .adobeRGB => 0
  | .pal_secam => 0
  | .americaNTSC => 0
  | .oldNTSC => 0.0000037
  | .appleRGB => 0
  | .dci_p3 => 0.0000039
  | .uhdtv => 0.0000029
  | .adobeWideGammutRGB => 0.0000025
  | .rommRGB => 0.0000024
  | .bestRGB => 0.0000029
  | .betaRGB => 0.0000031
  | .bruceRGB => 0
  | .colorMatchRGB => 0
  | .donRGB4 => 0
  | .ektaSpacePS5 => 0.0000034
  | .ProPhotoRGB => 0.0000024
  | .SMPTE_C_RGB => 0
  | .cieRGB => 0.0000011
  | .cieXYZ => 0.0000014

/-- Magnitudes of the coefficients of the RGB to XYZ matrix, rounding errors included. -/
noncomputable def coef (p : SpacePreset) (i j : Fin 3) : ℝ := presetPrimaries p i j * high p j + mag p i j * wide p j * 5.2e-5 + 1e-4

theorem mag_le (p : SpacePreset) (i j : Fin 3) : |presetPrimaries p i j| ≤ mag p i j ∧ 0 ≤ presetPrimaries p i j ∧ 0.026 ≤ mag p i j ∧ mag p i j ≤ 1 := by
  cases p <;> fin_cases i <;> fin_cases j <;> (simp only [mag, presetPrimaries, ccMat, SpacePreset.primaries, Matrix.of_apply, Matrix.cons_val', Matrix.cons_val, Fin.zero_eta, Fin.mk_one, Fin.reduceFinMk, Fin.isValue] <;> norm_num [abs_of_nonneg, abs_of_nonpos])

theorem det_le (p : SpacePreset) : det p ≤ rdet (presetPrimaries p) ∧ 0.2 ≤ det p ∧ det p ≤ 1 := by
  cases p <;> (simp only [det, rdet, presetPrimaries, ccMat, SpacePreset.primaries, Matrix.of_apply, Matrix.cons_val', Matrix.cons_val, Fin.zero_eta, Fin.mk_one, Fin.reduceFinMk, Fin.isValue] <;> norm_num [abs_of_nonneg, abs_of_nonpos])

theorem perm_le (p : SpacePreset) : perm3 (mag p) ≤ 1.87 * det p := by
  cases p <;> (simp only [det, perm3, mag, Matrix.of_apply, Matrix.cons_val', Matrix.cons_val, Fin.zero_eta, Fin.mk_one, Fin.reduceFinMk, Fin.isValue] <;> norm_num [abs_of_nonneg, abs_of_nonpos])

theorem white_le (p : SpacePreset) (i : Fin 3) : |presetWhite p i| = presetWhite p i ∧ 0.1 ≤ presetWhite p i ∧ presetWhite p i ≤ 1.2 := by
  cases p <;> fin_cases i <;> (simp only [presetWhite, SpacePreset.white, WhitePreset.literals, Matrix.of_apply, Matrix.cons_val', Matrix.cons_val, Fin.zero_eta, Fin.mk_one, Fin.reduceFinMk, Fin.isValue] <;> norm_num [abs_of_nonneg, abs_of_nonpos])

theorem wide_le (p : SpacePreset) (j : Fin 3) : padj (mag p) j 0 * presetWhite p 0 + padj (mag p) j 1 * presetWhite p 1 + padj (mag p) j 2 * presetWhite p 2 ≤ wide p j * det p ∧
    0.1 ≤ wide p j ∧ wide p j ≤ 5 := by
  cases p <;> fin_cases j <;> (simp only [wide, padj, mag, det, presetWhite, SpacePreset.white, WhitePreset.literals, Matrix.of_apply, Matrix.cons_val', Matrix.cons_val, Fin.zero_eta, Fin.mk_one, Fin.reduceFinMk, Fin.isValue] <;> norm_num [abs_of_nonneg, abs_of_nonpos])

theorem weight_le (p : SpacePreset) (j : Fin 3) :
    low p j * rdet (presetPrimaries p) ≤ |radj (presetPrimaries p) j 0 * presetWhite p 0 + radj (presetPrimaries p) j 1 * presetWhite p 1 + radj (presetPrimaries p) j 2 * presetWhite p 2| ∧
    |radj (presetPrimaries p) j 0 * presetWhite p 0 + radj (presetPrimaries p) j 1 * presetWhite p 1 + radj (presetPrimaries p) j 2 * presetWhite p 2| ≤ high p j * rdet (presetPrimaries p) ∧
    0 ≤ low p j ∧ low p j ≤ high p j := by
  cases p <;> fin_cases j <;> (simp only [low, high, radj, rdet, presetPrimaries, ccMat, SpacePreset.primaries, presetWhite, SpacePreset.white, WhitePreset.literals, Matrix.of_apply, Matrix.cons_val', Matrix.cons_val, Fin.zero_eta, Fin.mk_one, Fin.reduceFinMk, Fin.isValue] <;> norm_num [abs_of_nonneg, abs_of_nonpos])

theorem weight_pos (p : SpacePreset) (hp : p ≠ .cieRGB) (j : Fin 3) :
    0 ≤ radj (presetPrimaries p) j 0 * presetWhite p 0 + radj (presetPrimaries p) j 1 * presetWhite p 1 + radj (presetPrimaries p) j 2 * presetWhite p 2 := by
  cases p <;> first
    | exact absurd rfl hp
    | (fin_cases j <;> (simp only [radj, presetPrimaries, ccMat, SpacePreset.primaries, presetWhite, SpacePreset.white, WhitePreset.literals, Matrix.of_apply, Matrix.cons_val', Matrix.cons_val, Fin.zero_eta, Fin.mk_one, Fin.reduceFinMk, Fin.isValue] <;> norm_num [abs_of_nonneg, abs_of_nonpos]))

theorem error_le (p : SpacePreset) (i j : Fin 3) : mag p i j * wide p j * 5.16e-5 ≤ 1.4e-4 := by
  cases p <;> fin_cases i <;> fin_cases j <;> (simp only [mag, wide, Matrix.of_apply, Matrix.cons_val', Matrix.cons_val, Fin.zero_eta, Fin.mk_one, Fin.reduceFinMk, Fin.isValue] <;> norm_num [abs_of_nonneg, abs_of_nonpos])

theorem neg_le (p : SpacePreset) (i j : Fin 3) : mag p i j * wide p j * 5.16e-5 ≤ presetPrimaries p i j * low p j + neg p := by
  cases p <;> fin_cases i <;> fin_cases j <;> (simp only [mag, wide, low, neg, presetPrimaries, ccMat, SpacePreset.primaries, Matrix.of_apply, Matrix.cons_val', Matrix.cons_val, Fin.zero_eta, Fin.mk_one, Fin.reduceFinMk, Fin.isValue] <;> norm_num [abs_of_nonneg, abs_of_nonpos])

theorem neg_nonneg (p : SpacePreset) : 0 ≤ neg p := by cases p <;> (simp only [neg, Matrix.of_apply, Matrix.cons_val', Matrix.cons_val, Fin.zero_eta, Fin.mk_one, Fin.reduceFinMk, Fin.isValue] <;> norm_num [abs_of_nonneg, abs_of_nonpos])

theorem coef_le (p : SpacePreset) (i j : Fin 3) : 1e-4 ≤ coef p i j ∧ coef p i j ≤ 1.2 := by
  cases p <;> fin_cases i <;> fin_cases j <;> (simp only [coef, mag, wide, high, presetPrimaries, ccMat, SpacePreset.primaries, Matrix.of_apply, Matrix.cons_val', Matrix.cons_val, Fin.zero_eta, Fin.mk_one, Fin.reduceFinMk, Fin.isValue] <;> norm_num [abs_of_nonneg, abs_of_nonpos])

theorem det2_le (p : SpacePreset) : det2 p + 1.4e-4 * (padj (coef p) 0 0 + padj (coef p) 0 1 + padj (coef p) 0 2 + padj (coef p) 1 0 + padj (coef p) 1 1 + padj (coef p) 1 2 +
    padj (coef p) 2 0 + padj (coef p) 2 1 + padj (coef p) 2 2) ≤ det p * low p 0 * low p 1 * low p 2 ∧ 0.009 ≤ det2 p ∧ det2 p ≤ 1 := by
  cases p <;> (simp only [det2, padj, coef, mag, wide, high, low, det, presetPrimaries, ccMat, SpacePreset.primaries, Matrix.of_apply, Matrix.cons_val', Matrix.cons_val, Fin.zero_eta, Fin.mk_one, Fin.reduceFinMk, Fin.isValue] <;> norm_num [abs_of_nonneg, abs_of_nonpos])

theorem perm2_le (p : SpacePreset) : perm3 (coef p) ≤ 1.9 * det2 p := by
  cases p <;> (simp only [det2, perm3, coef, mag, wide, high, presetPrimaries, ccMat, SpacePreset.primaries, Matrix.of_apply, Matrix.cons_val', Matrix.cons_val, Fin.zero_eta, Fin.mk_one, Fin.reduceFinMk, Fin.isValue] <;> norm_num [abs_of_nonneg, abs_of_nonpos])

theorem trip_le (p : SpacePreset) (i : Fin 3) :
    padj (coef p) i 0 * ((coef p 0 0 + coef p 0 1 + coef p 0 2) * 3.936e-6 + 3 * neg p) +
    padj (coef p) i 1 * ((coef p 1 0 + coef p 1 1 + coef p 1 2) * 3.936e-6 + 3 * neg p) +
    padj (coef p) i 2 * ((coef p 2 0 + coef p 2 1 + coef p 2 2) * 3.936e-6 + 3 * neg p) ≤ 6.4e-5 * det2 p := by
  cases p <;> fin_cases i <;> (simp only [det2, padj, coef, mag, wide, high, neg, presetPrimaries, ccMat, SpacePreset.primaries, Matrix.of_apply, Matrix.cons_val', Matrix.cons_val, Fin.zero_eta, Fin.mk_one, Fin.reduceFinMk, Fin.isValue] <;> norm_num [abs_of_nonneg, abs_of_nonpos])

theorem inverse_le (p : SpacePreset) (i j : Fin 3) : padj (coef p) i j * 2.916e-6 ≤ 4.6e-5 * det2 p := by
  cases p <;> fin_cases i <;> fin_cases j <;> (simp only [det2, padj, coef, mag, wide, high, presetPrimaries, ccMat, SpacePreset.primaries, Matrix.of_apply, Matrix.cons_val', Matrix.cons_val, Fin.zero_eta, Fin.mk_one, Fin.reduceFinMk, Fin.isValue] <;> norm_num [abs_of_nonneg, abs_of_nonpos])

end Fine
