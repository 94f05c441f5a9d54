import Verif.Props.Gammas
import Verif.Props.Spaces

/-!
# Properties C121 and C122: the presets are the published curves and colour spaces

The specification is taken from the standards, not from the code: the transfer functions of IEC 61966-2-1 (sRGB), Adobe RGB (1998), ISO 22028-2 (ROMM RGB)
and ITU-R BT.2020, and the RGB to XYZ matrices as published by B. Lindbloom (and, for DCI-P3 with D65 and BT.2020, as in the standards).
-/

open Outcome Fl GammaPreset

/-! ## C121: transfer functions -/

namespace TransferSpec

/-- From linear light to the stored value ("gamma correction"), for light in [0,1]. -/
noncomputable def encode : GammaPreset → ℝ → ℝ
  | .g1_8, L => L ^ (1 / 1.8 : ℝ)
  | .g2_2, L => L ^ (1 / 2.2 : ℝ)
  | .g2_6, L => L ^ (1 / 2.6 : ℝ)
  | .g2_8, L => L ^ (1 / 2.8 : ℝ)
  | .adobe, L => L ^ (256 / 563 : ℝ)
  | .sRGB, L => if L ≤ 0.0031308 then 12.92 * L else 1.055 * L ^ (1 / 2.4 : ℝ) - 0.055
  | .romm, L => if L < 1 / 512 then 16 * L else L ^ (1 / 1.8 : ℝ)
  | .uhdtv, L => if L < 0.018053968510807 then 4.5 * L else 1.09929682680944 * L ^ (0.45 : ℝ) - 0.09929682680944

/-- From the stored value to linear light, for values in [0,1]. -/
noncomputable def decode : GammaPreset → ℝ → ℝ
  | .g1_8, V => V ^ (1.8 : ℝ)
  | .g2_2, V => V ^ (2.2 : ℝ)
  | .g2_6, V => V ^ (2.6 : ℝ)
  | .g2_8, V => V ^ (2.8 : ℝ)
  | .adobe, V => V ^ (563 / 256 : ℝ)
  | .sRGB, V => if V ≤ 0.04045 then V / 12.92 else ((V + 0.055) / 1.055) ^ (2.4 : ℝ)
  | .romm, V => if V < 16 / 512 then V / 16 else V ^ (1.8 : ℝ)
  | .uhdtv, V => if V < 4.5 * 0.018053968510807 then V / 4.5 else ((V + 0.09929682680944) / 1.09929682680944) ^ (1 / 0.45 : ℝ)

end TransferSpec

section
variable [StdSort] [FloatModel] [ExactModel]

/-- C121 for all presets but UHDTV: both directions are the published transfer function.  Missing: UHDTV, where both directions are wrong
(`C121_uhdtv_violated`), and for ROMM light in (0.001953, 1/512) and stored values in (0.001953, 1/32) (`C121_romm_violated`). -/
theorem C121_transfer_partial (p : GammaPreset) (hp : p ≠ uhdtv) (st : PartStore) (next : Nat) :
    ∃ g, (p.create st next).2 = ok g ∧ ∀ x : ℝ, 0 ≤ x → x ≤ 1 →
      ((p = romm → x ≤ 0.001953 ∨ 1 / 512 ≤ x) → g.correct (p.create st next).1 (fin x) = fin (TransferSpec.encode p x)) ∧
      ((p = romm → x ≤ 0.001953 ∨ 1 / 32 ≤ x) → g.inverse (p.create st next).1 (fin x) = fin (TransferSpec.decode p x)) := by
  obtain ⟨g, hg, he⟩ := preset_curves p st next
  refine ⟨g, hg, fun x h0 h1 => ?_⟩
  rw [(he _).1, (he _).2]
  cases p with
  | uhdtv => exact absurd rfl hp
  | sRGB =>
    refine ⟨fun _ => ?_, fun _ => ?_⟩
    · rw [(eval_sRGB h0 h1).1]; simp only [TransferSpec.encode]; norm_num
    · rw [(eval_sRGB h0 h1).2]; simp only [TransferSpec.decode]; norm_num
  | romm =>
    refine ⟨fun h => ?_, fun h => ?_⟩
    · rw [(eval_romm h0 h1).1]; simp only [TransferSpec.encode]
      rcases h rfl with h | h
      · rw [if_pos h, if_pos (by linarith)]
      · rw [if_neg (by linarith), if_neg (by linarith)]; norm_num
    · rw [(eval_romm h0 h1).2]; simp only [TransferSpec.decode]
      rcases h rfl with h | h
      · rw [if_pos h, if_pos (by linarith)]
      · rw [if_neg (by linarith), if_neg (by linarith)]; norm_num
  | _ =>
    refine ⟨fun _ => ?_, fun _ => ?_⟩
    · rw [(eval_power (by simp [IsPower]) h0 h1).1]; simp only [TransferSpec.encode, expo]; norm_num
    · rw [(eval_power (by simp [IsPower]) h0 h1).2]; simp only [TransferSpec.decode, expo]; norm_num

/-- C121 fails for ROMM: the border of the second direction is the one of the first, so that dark stored values are decoded to less than
three quarters of the light they stand for. -/
theorem C121_romm_violated (st : PartStore) (next : Nat) :
    ∃ g y, (romm.create st next).2 = ok g ∧ g.inverse (romm.create st next).1 (fin 0.02) = fin y ∧
      TransferSpec.decode romm 0.02 = 0.00125 ∧ y < 0.75 * 0.00125 := by
  obtain ⟨g, hg, he⟩ := preset_curves romm st next
  refine ⟨g, _, hg, by rw [(he _).2, (eval_romm (by norm_num) (by norm_num)).2], ?_, ?_⟩
  · simp only [TransferSpec.decode]; rw [if_pos (by norm_num)]; norm_num
  · rw [if_neg (by norm_num)]
    have := rpow_lt_of_pow (a := 0.02) (b := 0.75 * 0.00125) (m := 9) (n := 5) (by norm_num) (by norm_num) (by norm_num) (by norm_num)
    simpa using this

/-- The power part of the BT.2020 function lies above the diagonal. -/
theorem uhdtv_power_gt {x k : ℝ} (h0 : 0.018 < x) (h1 : x < 1) (k0 : 0 ≤ k) (k1 : k ≤ 0.1) : x < (1 + k) * x ^ (9/20 : ℝ) - k := by
  have hs : x ^ (1/2 : ℝ) < x ^ (9/20 : ℝ) := Real.rpow_lt_rpow_of_exponent_gt (by linarith) h1 (by norm_num)
  rw [← Real.sqrt_eq_rpow] at hs
  have hq := Real.sq_sqrt (show 0 ≤ x by linarith)
  have q1 : Real.sqrt x < 1 := by rw [Real.sqrt_lt' one_pos]; linarith
  have q0 : 0.13 < Real.sqrt x := Real.lt_sqrt_of_sq_lt (by norm_num; linarith)
  nlinarith [mul_pos (show 0 < 1 - Real.sqrt x by linarith) (show 0 < Real.sqrt x - k by linarith)]

/-- The BT.2020 function brightens. -/
theorem uhdtv_encode_gt {x : ℝ} (h0 : 0 < x) (h1 : x < 1) : x < TransferSpec.encode uhdtv x := by
  simp only [TransferSpec.encode]
  split_ifs with h
  · linarith
  · have := uhdtv_power_gt (x := x) (k := 0.09929682680944) (by linarith) h1 (by norm_num) (by norm_num)
    norm_num at this ⊢
    linarith

/-- C121 fails for UHDTV at every value: the directions are exchanged.  What should brighten darkens and the other way round. -/
theorem C121_uhdtv_violated (st : PartStore) (next : Nat) :
    ∃ g, (uhdtv.create st next).2 = ok g ∧ ∀ x : ℝ, 0 < x → x < 1 →
      (∃ y, g.correct (uhdtv.create st next).1 (fin x) = fin y ∧ y < x ∧ x < TransferSpec.encode uhdtv x) ∧
      (∃ y, g.inverse (uhdtv.create st next).1 (fin x) = fin y ∧ x < y ∧ TransferSpec.decode uhdtv x < x) := by
  obtain ⟨g, hg, he⟩ := preset_curves uhdtv st next
  refine ⟨g, hg, fun x h0 h1 => ⟨⟨_, by rw [(he _).1, (eval_uhdtv h0.le h1.le).1], ?_, uhdtv_encode_gt h0 h1⟩,
    ⟨_, by rw [(he _).2, (eval_uhdtv h0.le h1.le).2], ?_, ?_⟩⟩⟩
  · split_ifs with h
    · rw [div_lt_iff₀ (by norm_num)]; linarith
    · have hb0 : 0 < (x + 0.099) / 1.099 := by positivity
      have hb1 : (x + 0.099) / 1.099 < 1 := by rw [div_lt_one (by norm_num)]; linarith
      -- with b the bracket, x = 1.099 b - 0.099, and b^(20/9) <= b^2 <= x for b >= 0.099
      have hle : ((x + 0.099) / 1.099) ^ (20/9 : ℝ) < ((x + 0.099) / 1.099) ^ (2 : ℝ) := Real.rpow_lt_rpow_of_exponent_gt hb0 hb1 (by norm_num)
      rw [Real.rpow_two] at hle
      have hsq : ((x + 0.099) / 1.099) ^ 2 ≤ x := by
        rw [div_pow, div_le_iff₀ (by norm_num)]
        nlinarith
      linarith
  · split_ifs with h
    · linarith
    · have := uhdtv_power_gt (x := x) (k := 0.099) (by linarith) h1 (by norm_num) (by norm_num)
      norm_num at this ⊢
      linarith
  · simp only [TransferSpec.decode]
    split_ifs with h
    · rw [div_lt_iff₀ (by norm_num)]; linarith
    · have hb0 : 0 < (x + 0.09929682680944) / 1.09929682680944 := by positivity
      have hb1 : (x + 0.09929682680944) / 1.09929682680944 < 1 := by rw [div_lt_one (by norm_num)]; linarith
      have hle : ((x + 0.09929682680944) / 1.09929682680944) ^ (1 / 0.45 : ℝ) < ((x + 0.09929682680944) / 1.09929682680944) ^ (2 : ℝ) :=
        Real.rpow_lt_rpow_of_exponent_gt hb0 hb1 (by norm_num)
      rw [Real.rpow_two] at hle
      have hsq : ((x + 0.09929682680944) / 1.09929682680944) ^ 2 ≤ x := by
        rw [div_pow, div_le_iff₀ (by norm_num)]
        nlinarith
      linarith

end

/-- Middle grey: sRGB 0.5 is decoded by the power branch, 0.04 by the linear one. -/
example : ¬ ((0.5 : ℝ) ≤ 0.04045) ∧ (0.04 : ℝ) ≤ 0.04045 ∧ (sRGB ≠ uhdtv) := ⟨by norm_num, by norm_num, by decide⟩

/-! ## C122: RGB to XYZ matrices -/

namespace PresetSpec

/-- The published matrices from linear RGB to XYZ. -/
noncomputable def matrix : SpacePreset → Matrix (Fin 3) (Fin 3) ℝ
  | .sRGB => !![0.4124564, 0.3575761, 0.1804375; 0.2126729, 0.7151522, 0.072175; 0.0193339, 0.119192, 0.9503041]
  | .adobeRGB => !![0.5767309, 0.185554, 0.1881852; 0.2973769, 0.6273491, 0.0752741; 0.0270343, 0.0706872, 0.9911085]
  | .pal_secam => !![0.430619, 0.3415419, 0.1783091; 0.2220379, 0.7066384, 0.0713236; 0.0201853, 0.1295504, 0.9390944]
  | .americaNTSC => !![0.3935891, 0.3652497, 0.1916313; 0.2124132, 0.7010437, 0.0865432; 0.0187423, 0.1119313, 0.9581563]
  | .oldNTSC => !![0.6068909, 0.1735011, 0.200348; 0.2989164, 0.586599, 0.1144845; 0, 0.0660957, 1.1162243]
  | .appleRGB => !![0.4497288, 0.3162486, 0.1844926; 0.2446525, 0.6720283, 0.0833192; 0.0251848, 0.1411824, 0.9224628]
  | .dci_p3 => !![0.486571, 0.265668, 0.198217; 0.228975, 0.691739, 0.079287; 0, 0.045113, 1.043944]
  | .uhdtv => !![0.636958, 0.144617, 0.168881; 0.2627, 0.677998, 0.059302; 0, 0.028073, 1.060985]
  | .adobeWideGammutRGB => !![0.7161046, 0.1009296, 0.1471858; 0.2581874, 0.7249378, 0.0168748; 0, 0.0517813, 0.7734287]
  | .rommRGB => !![0.7976749, 0.1351917, 0.0313534; 0.2880402, 0.7118741, 0.0000857; 0, 0, 0.82521]
  | .bestRGB => !![0.6326696, 0.2045558, 0.1269946; 0.2284569, 0.7373523, 0.0341908; 0, 0.0095142, 0.8156958]
  | .betaRGB => !![0.6712537, 0.1745834, 0.1183829; 0.3032726, 0.6637861, 0.0329413; 0, 0.040701, 0.784509]
  | .bruceRGB => !![0.4674162, 0.2944512, 0.1886026; 0.2410115, 0.6835475, 0.075441; 0.0219101, 0.0736128, 0.9933071]
  | .colorMatchRGB => !![0.5093439, 0.3209071, 0.1339691; 0.274884, 0.6581315, 0.0669845; 0.0242545, 0.1087821, 0.6921735]
  | .donRGB4 => !![0.6457711, 0.1933511, 0.1250978; 0.2783496, 0.6879702, 0.0336802; 0.0037113, 0.0179861, 0.8035125]
  | .ektaSpacePS5 => !![0.5938914, 0.2729801, 0.0973485; 0.2606286, 0.7349465, 0.0044249; 0, 0.0419969, 0.7832131]
  | .ProPhotoRGB => !![0.7976749, 0.1351917, 0.0313534; 0.2880402, 0.7118741, 0.0000857; 0, 0, 0.82521]
  | .SMPTE_C_RGB => !![0.3935891, 0.3652497, 0.1916313; 0.2124132, 0.7010437, 0.0865432; 0.0187423, 0.1119313, 0.9581563]
  | .cieRGB => !![0.488718, 0.3106803, 0.2006017; 0.1762044, 0.8129847, 0.0108109; 0, 0.0102048, 0.9897952]
  | .cieXYZ => !![1, 0, 0; 0, 1, 0; 0, 0, 1]

/-- `v` is `m` applied to (r, g, b), up to `e` times the sum of the three. -/
def Near (e : ℝ) (m : Matrix (Fin 3) (Fin 3) ℝ) (r g b X Y Z : ℝ) : Prop :=
  |X - (m 0 0 * r + m 0 1 * g + m 0 2 * b)| ≤ e * (r + g + b) ∧
  |Y - (m 1 0 * r + m 1 1 * g + m 1 2 * b)| ≤ e * (r + g + b) ∧
  |Z - (m 2 0 * r + m 2 1 * g + m 2 2 * b)| ≤ e * (r + g + b)

end PresetSpec

/-- The entries of the matrix of a preset. -/
theorem preset_entry (p : SpacePreset) (i j : Fin 3) : SpaceDef.idealMat (presetPrimaries p) (presetWhite p) i j =
    ((presetPrimaries p).updateCol j (presetWhite p)).det / (presetPrimaries p).det * presetPrimaries p i j := by
  have hd := preset_det p
  have hw := weights_cramer _ (presetWhite p) hd.ne'
  have u := isUnit_iff_ne_zero.mpr hd.ne'
  have := congrArg (presetPrimaries p)⁻¹.mulVec hw
  rw [Matrix.mulVec_mulVec, Matrix.nonsing_inv_mul _ u, Matrix.one_mulVec] at this
  rw [SpaceDef.idealMat, Matrix.mul_diagonal, ← this, mul_comm]

set_option maxHeartbeats 2000000 in
theorem preset_near (p : SpacePreset) (h1 : p ≠ .cieRGB) (h2 : p ≠ .cieXYZ) (i j : Fin 3) :
    |SpaceDef.idealMat (presetPrimaries p) (presetWhite p) i j - PresetSpec.matrix p i j| ≤ 0.0003 := by
  have hd := preset_det p
  rw [preset_entry, abs_le, div_mul_eq_mul_div, le_sub_iff_add_le, sub_le_iff_le_add, le_div_iff₀ hd, div_le_iff₀ hd]
  cases p <;> first
    | exact absurd rfl h1
    | exact absurd rfl h2
    | (fin_cases i <;> fin_cases j <;> rw [Matrix.det_fin_three, Matrix.det_fin_three] <;>
        simp [presetPrimaries, presetWhite, ccMat, SpacePreset.primaries, SpacePreset.white, WhitePreset.literals, Matrix.updateCol_apply, PresetSpec.matrix] <;> norm_num)

theorem row_near {e a b c a' b' c' r g s : ℝ} (ha : |a - a'| ≤ e) (hb : |b - b'| ≤ e) (hc : |c - c'| ≤ e) (hr : 0 ≤ r) (hg : 0 ≤ g) (hs : 0 ≤ s) :
    |a * r + b * g + c * s - (a' * r + b' * g + c' * s)| ≤ e * (r + g + s) := by
  rw [abs_le] at *
  constructor <;> nlinarith [mul_nonneg hr (sub_nonneg.mpr ha.1), mul_nonneg hg (sub_nonneg.mpr hb.1), mul_nonneg hs (sub_nonneg.mpr hc.1),
    mul_nonneg hr (sub_nonneg.mpr ha.2), mul_nonneg hg (sub_nonneg.mpr hb.2), mul_nonneg hs (sub_nonneg.mpr hc.2)]

/-- C122 for all presets but cieRGB and cieXYZ: the matrix that the code computes from the primaries and the white point is the published one, to
0.0003 per unit of light (the white points have four digits).  Missing: cieRGB and cieXYZ (`C122_violated`). -/
theorem C122_matrix_partial [FloatModel] [ExactModel] (p : SpacePreset) (h1 : p ≠ .cieRGB) (h2 : p ≠ .cieXYZ) (ws : WhiteStore) (wp g : Nat) :
    ∃ s, p.create ws wp g = ok s ∧ ∀ r gr b : ℝ, 0 ≤ r → 0 ≤ gr → 0 ≤ b → ∃ X Y Z,
      s.transform.mulVec [fin r, fin gr, fin b] = ok [fin X, fin Y, fin Z] ∧ PresetSpec.Near 0.0003 (PresetSpec.matrix p) r gr b X Y Z := by
  obtain ⟨s, hs, hreach, hr, -⟩ := preset_create p ws wp g
  refine ⟨s, hs, fun r gr b hr0 hg0 hb0 => ?_⟩
  have := Mat.mulVec_three (f := fin) Mat.emb_fin (SpaceDef.idealMat (presetPrimaries p) (presetWhite p)) ![r, gr, b]
  rw [(space_inv _ s hreach _ _ hr).1]
  refine ⟨_, _, _, this, ?_, ?_, ?_⟩ <;> simp only [Matrix.mulVec, dotProduct, Fin.sum_univ_three, Matrix.cons_val_zero, Matrix.cons_val_one, Matrix.cons_val] <;>
    exact row_near (preset_near p h1 h2 _ _) (preset_near p h1 h2 _ _) (preset_near p h1 h2 _ _) hr0 hg0 hb0

/-- C122 fails for cieRGB and cieXYZ, because of their white point (C86): linear red is off by more than 0.8. -/
theorem C122_violated [FloatModel] [ExactModel] (p : SpacePreset) (hp : p = .cieRGB ∨ p = .cieXYZ) (ws : WhiteStore) (wp g : Nat) :
    ∃ s X Y Z, p.create ws wp g = ok s ∧ s.transform.mulVec [1, 0, 0] = ok [fin X, fin Y, fin Z] ∧ X - PresetSpec.matrix p 0 0 < -0.8 := by
  obtain ⟨s, hs, hreach, hr, -⟩ := preset_create p ws wp g
  have := Mat.mulVec_three (f := fin) Mat.emb_fin (SpaceDef.idealMat (presetPrimaries p) (presetWhite p)) ![1, 0, 0]
  rw [← (space_inv _ s hreach _ _ hr).1] at this
  refine ⟨s, _, _, _, hs, by simpa using this, ?_⟩
  have hd := preset_det p
  simp only [Matrix.mulVec, dotProduct, Fin.sum_univ_three, Matrix.cons_val_zero, Matrix.cons_val_one, Matrix.cons_val, mul_one, mul_zero, add_zero]
  rw [preset_entry, div_mul_eq_mul_div, sub_lt_iff_lt_add, div_lt_iff₀ hd]
  rcases hp with rfl | rfl <;> rw [Matrix.det_fin_three, Matrix.det_fin_three] <;>
    simp [presetPrimaries, presetWhite, ccMat, SpacePreset.primaries, SpacePreset.white, WhitePreset.literals, Matrix.updateCol_apply, PresetSpec.matrix] <;> norm_num

/-- sRGB: the luminance of pure green, to be compared with 0.7151522. -/
example : PresetSpec.matrix .sRGB 1 1 = 0.7151522 ∧ SpacePreset.sRGB ≠ .cieRGB ∧ SpacePreset.sRGB ≠ .cieXYZ := by simp [PresetSpec.matrix]
