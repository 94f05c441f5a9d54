import Verif.Props.Equality
import Verif.Props.Presets
import Verif.Props.CieFormulas

/-!
# Property C136: colours of the preset colour spaces, from stored value to XYZ
-/

open Outcome Fl FormulaSpec Formula ConvSpec

namespace PresetSpec

/-- The published transfer functions from the stored value to linear light (for PAL/SECAM and DCI-P3 the exponents of ITU-R BT.470 and SMPTE RP 431-2, which the
documentation in rgb_color_space_definition.h names). -/
noncomputable def light : SpacePreset → ℝ → ℝ
  | .sRGB, V => if V ≤ 0.04045 then V / 12.92 else ((V + 0.055) / 1.055) ^ (2.4 : ℝ)
  | .adobeRGB, V | .adobeWideGammutRGB, V => V ^ (563 / 256 : ℝ)
  | .pal_secam, V => V ^ (2.8 : ℝ)
  | .dci_p3, V => V ^ (2.6 : ℝ)
  | .appleRGB, V | .colorMatchRGB, V | .ProPhotoRGB, V => V ^ (1.8 : ℝ)
  | .rommRGB, V => if V < 16 / 512 then V / 16 else V ^ (1.8 : ℝ)
  | .uhdtv, V => if V < 4.5 * 0.018053968510807 then V / 4.5 else ((V + 0.09929682680944) / 1.09929682680944) ^ (1 / 0.45 : ℝ)
  | _, V => V ^ (2.2 : ℝ)

/-- The colour space at address `s` was made by the preset `p`, and neither its white point nor the parts of its curve were changed since; anything may have been allocated
before and after. -/
structure Holds [FloatModel] [StdSort] (w : World) (p : SpacePreset) (s : Nat) : Prop where
  made : ∃ ws wp m st next, p.create ws wp m = ok (w.spaces s) ∧ w.whites wp = p.white.create ∧
    (p.gamma.create st next).2 = ok (w.gammas m) ∧ ∀ q, next ≤ q → q < next + (p.gamma.parts ++ p.gamma.invParts).length → w.parts q = (p.gamma.create st next).1 q

end PresetSpec

open PresetSpec

section
variable [FloatModel] [StdSort] [ExactModel]

omit [ExactModel] in
/-- The white points that are not used do not matter. -/
theorem SpacePreset.create_congr (p : SpacePreset) (ws ws' : WhiteStore) (wp m : Nat) : p.create ws wp m = p.create ws' wp m := by
  simp [SpacePreset.create, SpaceDef.construct, SpaceDef.recompute]

/-- What the code knows about a colour space that a preset made. -/
theorem PresetSpec.Holds.facts {w : World} {p : SpacePreset} {s : Nat} (h : Holds w p s) : ∃ m, (w.spaces s).gamma = some m ∧ SpaceReach w.whites (w.spaces s) ∧
    SpaceDef.Regular w.whites (w.spaces s) (presetPrimaries p) (presetWhite p) ∧
    ∀ x, (w.gammas m).correct w.parts x = GammaPreset.evalParts p.gamma.parts x ∧ (w.gammas m).inverse w.parts x = GammaPreset.evalParts p.gamma.invParts x := by
  obtain ⟨ws, wp, m, st, next, h1, h2, h3, h4⟩ := h.made
  obtain ⟨t, ht, hreach, hreg, hg, -⟩ := preset_create p w.whites wp m
  rw [SpacePreset.create_congr p _ ws, h1] at ht
  obtain rfl := ok_inj.mp ht
  have hu : Function.update w.whites wp p.white.create = w.whites := by rw [← h2, Function.update_eq_self]
  rw [hu] at hreach hreg
  refine ⟨m, hg, hreach, hreg, fun x => ?_⟩
  obtain ⟨g, hg, ev⟩ := preset_curves p.gamma st next
  rw [h3] at hg
  obtain rfl := ok_inj.mp hg
  rw [← (ev x).1, ← (ev x).2]
  have pick_congr : ∀ (k l : Nat) (x : Fl), next ≤ k → k + l ≤ next + (p.gamma.parts ++ p.gamma.invParts).length →
      Gamma.pick w.parts (GammaPreset.addresses k l) x = Gamma.pick (p.gamma.create st next).1 (GammaPreset.addresses k l) x := by
    intro k l x hk hkl
    rw [GammaPreset.addresses, GammaPreset.pick_eq, GammaPreset.pick_eq]
    congr 1
    rw [List.map_inj_left]
    intro a ha
    simp only [List.mem_range'_1] at ha
    exact h4 a (by omega) (by omega)
  rw [GammaPreset.create_shape] at h3
  rw [← ok_inj.mp h3]
  rw [List.length_append] at pick_congr
  exact ⟨pick_congr _ _ _ le_rfl (by omega), pick_congr _ _ _ (by omega) (by omega)⟩

omit [FloatModel] [StdSort] [ExactModel] in
theorem limit_near {x t e : ℝ} (h0 : 0 ≤ t) (h1 : t ≤ 100) (h : |x - t| ≤ e) : |limit 0 100 x - t| ≤ e := by
  rw [abs_le] at h ⊢
  rw [limit]
  constructor <;> rcases max_cases 0 (min 100 x) with ⟨e1, e2⟩ | ⟨e1, e2⟩ <;> rcases min_cases 100 x with ⟨e3, e4⟩ | ⟨e3, e4⟩ <;> rw [e1] <;> linarith

omit [FloatModel] [StdSort] [ExactModel] in
theorem matrix_range (p : SpacePreset) (i j : Fin 3) : 0 ≤ PresetSpec.matrix p i j ∧ PresetSpec.matrix p i j ≤ 2 := by
  cases p <;> fin_cases i <;> fin_cases j <;> norm_num [PresetSpec.matrix]

omit [FloatModel] [StdSort] [ExactModel] in
theorem PresetSpec.light_eq (p : SpacePreset) (V : ℝ) : light p V = TransferSpec.decode p.gamma V := by cases p <;> rfl

omit [FloatModel] [StdSort] [ExactModel] in
theorem PresetSpec.light_range (p : SpacePreset) {V : ℝ} (h0 : 0 ≤ V) (h1 : V ≤ 1) : 0 ≤ light p V ∧ light p V ≤ 1 := by
  have pw : ∀ (b e : ℝ), 0 ≤ b → b ≤ 1 → 0 < e → 0 ≤ b ^ e ∧ b ^ e ≤ 1 := fun b e h0 h1 he => ⟨Real.rpow_nonneg h0 _, Real.rpow_le_one h0 h1 he.le⟩
  cases p <;> simp only [light] <;> first
    | exact pw _ _ h0 h1 (by norm_num)
    | (split_ifs
       · constructor <;> [positivity; (rw [div_le_one (by norm_num)]; linarith)]
       · exact pw _ _ (by first | positivity | exact h0) (by first | exact h1 | (rw [div_le_one (by norm_num)]; linarith)) (by norm_num))

theorem PresetSpec.Holds.decode {w : World} {p : SpacePreset} {s : Nat} (h : Holds w p s) (hp : p ≠ .uhdtv) : ∃ m, (w.spaces s).gamma = some m ∧ ∀ V : ℝ, 0 ≤ V → V ≤ 1 →
    (p = .rommRGB → V ≤ 0.001953 ∨ 1 / 32 ≤ V) → (w.gammas m).inverse w.parts (fin V) = fin (light p V) := by
  obtain ⟨m, hm, -, -, ev⟩ := h.facts
  refine ⟨m, hm, fun V h0 h1 hr => ?_⟩
  obtain ⟨g, hg, hd⟩ := C121_transfer_partial p.gamma (by cases p <;> simp [SpacePreset.gamma] at hp ⊢) (fun _ => ⟨none, 1⟩) 0
  obtain ⟨g', hg', ev'⟩ := preset_curves p.gamma (fun _ => ⟨none, 1⟩) 0
  rw [hg] at hg'
  obtain rfl := ok_inj.mp hg'
  rw [(ev _).2, ← (ev' _).2, light_eq]
  refine (hd V h0 h1).2 fun hp => hr ?_
  cases p <;> simp [SpacePreset.gamma] at hp ⊢

/-- C136 for all presets but UHDTV, cieRGB and cieXYZ: the XYZ value of a stored colour is the published one (transfer function and matrix of the standard), to 0.0003 of the
light.  Missing: UHDTV (`C136_uhdtv_violated`), cieRGB and cieXYZ (`C136_cie_violated`), and for ROMM stored values in (0.001953, 1/32) (`C121_romm_violated`). -/
theorem C136_to_xyz_partial (p : SpacePreset) (h1 : p ≠ .cieRGB) (h2 : p ≠ .cieXYZ) (h3 : p ≠ .uhdtv) (w : World) (s : Nat) (h : Holds w p s) (c : Color) (r g b : ℝ)
    (hc : IsRgb c r g b) (hs : c.space = some s) (hromm : p = .rommRGB → ∀ v ∈ [r, g, b], v ≤ 0.001953 ∨ 1 / 32 ≤ v) :
    ∃ X Y Z, Gives w c .xyz [X, Y, Z] ∧ Near 0.0003 (PresetSpec.matrix p) (light p r) (light p g) (light p b) X Y Z := by
  obtain ⟨m, hm, hreach, hreg, -⟩ := h.facts
  obtain ⟨m', hm', dec⟩ := h.decode h3
  rw [hm] at hm'
  obtain rfl := Option.some_inj.mp hm'
  have lr := light_range p hc.r0 hc.r1
  have lg := light_range p hc.g0 hc.g1
  have lb := light_range p hc.b0 hc.b1
  have key := C112_to_xyz w c r g b hc s m hs hm (presetPrimaries p) (presetWhite p) _ ![light p r, light p g, light p b] hreach hreg (weights_cramer _ (presetWhite p) (preset_det p).ne')
    (by intro i; fin_cases i <;> simpa) (dec r hc.r0 hc.r1 fun e => hromm e r (by simp)) (dec g hc.g0 hc.g1 fun e => hromm e g (by simp)) (dec b hc.b0 hc.b1 fun e => hromm e b (by simp))
  refine ⟨_, _, _, key, ?_, ?_, ?_⟩ <;> rw [← mixed_eq (preset_det p).ne' (weights_cramer _ (presetWhite p) (preset_det p).ne')] <;>
    simp only [Matrix.mulVec, dotProduct, Fin.sum_univ_three, Matrix.cons_val_zero, Matrix.cons_val_one, Matrix.cons_val] <;>
    refine limit_near ?_ ?_ (row_near (preset_near p h1 h2 _ _) (preset_near p h1 h2 _ _) (preset_near p h1 h2 _ _) lr.1 lg.1 lb.1)
  any_goals
    have m0 := matrix_range p 0 0; have m1 := matrix_range p 0 1; have m2 := matrix_range p 0 2
    have m3 := matrix_range p 1 0; have m4 := matrix_range p 1 1; have m5 := matrix_range p 1 2
    have m6 := matrix_range p 2 0; have m7 := matrix_range p 2 1; have m8 := matrix_range p 2 2
  any_goals exact add_nonneg (add_nonneg (mul_nonneg (matrix_range p _ _).1 lr.1) (mul_nonneg (matrix_range p _ _).1 lg.1)) (mul_nonneg (matrix_range p _ _).1 lb.1)
  all_goals
    have hb : ∀ i, PresetSpec.matrix p i 0 * light p r + PresetSpec.matrix p i 1 * light p g + PresetSpec.matrix p i 2 * light p b ≤ 2 * 1 + 2 * 1 + 2 * 1 := fun i =>
      add_le_add (add_le_add (mul_le_mul (matrix_range p _ _).2 lr.2 lr.1 (by norm_num)) (mul_le_mul (matrix_range p _ _).2 lg.2 lg.1 (by norm_num)))
        (mul_le_mul (matrix_range p _ _).2 lb.2 lb.1 (by norm_num))
    exact (hb _).trans (by norm_num)

/-- C136 fails for UHDTV: the luminance of every grey between black and white is above the stored value, whereas that of the standard is below. -/
theorem C136_uhdtv_violated (w : World) (s : Nat) (h : Holds w .uhdtv s) (c : Color) (V : ℝ) (hc : IsRgb c V V V) (hs : c.space = some s) (h0 : 0 < V) (h1 : V < 1) :
    ∃ X Y Z, Gives w c .xyz [X, Y, Z] ∧ V < Y ∧ light .uhdtv V < V := by
  obtain ⟨m, hm, hreach, hreg, ev⟩ := h.facts
  obtain ⟨g, hg, hd⟩ := C121_uhdtv_violated (fun _ => ⟨none, 1⟩) 0
  obtain ⟨g', hg', ev'⟩ := preset_curves .uhdtv (fun _ => ⟨none, 1⟩) 0
  rw [hg] at hg'
  obtain rfl := ok_inj.mp hg'
  obtain ⟨-, y, hy, hlt, hdec⟩ := hd V h0 h1
  have hinv : (w.gammas m).inverse w.parts (fin V) = fin y := by rw [(ev _).2, ← hy, (ev' _).2]; rfl
  have y1 : y ≤ 1 := by
    rw [(ev' _).2, (GammaPreset.eval_uhdtv h0.le h1.le).2, fin_inj] at hy
    rw [← hy]
    split_ifs with hv
    · linarith
    · have := Real.rpow_le_one h0.le h1.le (show (0 : ℝ) ≤ 9 / 20 by norm_num)
      linarith
  have hk := weights_cramer _ (presetWhite .uhdtv) (preset_det .uhdtv).ne'
  have key := C112_to_xyz w c V V V hc s m hs hm (presetPrimaries .uhdtv) (presetWhite .uhdtv) _ (fun _ => y) hreach hreg hk (fun _ => ⟨by linarith, y1⟩) hinv hinv hinv
  refine ⟨_, _, _, key, ?_, hdec⟩
  have e : mixed (presetPrimaries .uhdtv) (fun i => ((presetPrimaries .uhdtv).updateCol i (presetWhite .uhdtv)).det / (presetPrimaries .uhdtv).det) (fun _ => y) 1 = y := by
    have := congrFun hk 1
    simp only [Matrix.mulVec, dotProduct, Fin.sum_univ_three] at this
    simp only [mixed, Fin.sum_univ_three, ← add_mul, this]
    norm_num [presetWhite, SpacePreset.white, WhitePreset.literals]
  rw [e, limit, min_eq_right (by linarith), max_eq_right (by linarith)]
  exact hlt

/-- C136 fails for cieRGB and cieXYZ, because of their white point (C86): white has X = Z = 0.1 instead of 1. -/
theorem C136_cie_violated (p : SpacePreset) (hp : p = .cieRGB ∨ p = .cieXYZ) (w : World) (s : Nat) (h : Holds w p s) (c : Color) (hc : IsRgb c 1 1 1) (hs : c.space = some s) :
    ∃ X Y Z, Gives w c .xyz [X, Y, Z] ∧ X = 0.1 ∧ Z = 0.1 ∧ |(PresetSpec.matrix p 0 0 + PresetSpec.matrix p 0 1 + PresetSpec.matrix p 0 2) - 1| ≤ 0.001 ∧
      |(PresetSpec.matrix p 2 0 + PresetSpec.matrix p 2 1 + PresetSpec.matrix p 2 2) - 1| ≤ 0.001 := by
  have hne : p ≠ .uhdtv := by rcases hp with rfl | rfl <;> simp
  have hnr : p ≠ .rommRGB := by rcases hp with rfl | rfl <;> simp
  obtain ⟨m, hm, hreach, hreg, -⟩ := h.facts
  obtain ⟨m', hm', dec⟩ := h.decode hne
  rw [hm] at hm'
  obtain rfl := Option.some_inj.mp hm'
  have e1 := dec 1 zero_le_one le_rfl fun e => absurd e hnr
  rw [show light p 1 = 1 by rcases hp with rfl | rfl <;> simp [light]] at e1
  have hk := weights_cramer _ (presetWhite p) (preset_det p).ne'
  have key := C112_to_xyz w c 1 1 1 hc s m hs hm (presetPrimaries p) (presetWhite p) _ (fun _ => 1) hreach hreg hk (by norm_num) e1 e1 e1
  have e : ∀ i, mixed (presetPrimaries p) (fun i => ((presetPrimaries p).updateCol i (presetWhite p)).det / (presetPrimaries p).det) (fun _ => 1) i = presetWhite p i := by
    intro i
    have := congrFun hk i
    simp only [Matrix.mulVec, dotProduct, Fin.sum_univ_three] at this
    simp only [mixed, Fin.sum_univ_three, mul_one, this]
  have w0 : presetWhite p 0 = 0.1 := by rcases hp with rfl | rfl <;> norm_num [presetWhite, SpacePreset.white, WhitePreset.literals]
  have w2 : presetWhite p 2 = 0.1 := by rcases hp with rfl | rfl <;> simp [presetWhite, SpacePreset.white, WhitePreset.literals] <;> norm_num
  refine ⟨_, _, _, key, by rw [e, w0]; norm_num [limit], by rw [e, w2]; norm_num [limit], ?_⟩
  rcases hp with rfl | rfl <;> simp [PresetSpec.matrix] <;> norm_num [abs_le]

/-- Case: every preset can be made, with its own white point and curve. -/
theorem exists_holds (p : SpacePreset) : ∃ w : World, Holds w p 0 := by
  obtain ⟨g, hg, -⟩ := preset_curves p.gamma (fun _ => ⟨none, 1⟩) 0
  obtain ⟨s, hs, -⟩ := preset_create p (fun _ => p.white.create) 0 0
  exact ⟨⟨(p.gamma.create (fun _ => ⟨none, 1⟩) 0).1, fun _ => g, fun _ => p.white.create, fun _ => s⟩, ⟨_, 0, 0, _, 0, hs, rfl, hg, fun _ _ _ => rfl⟩⟩

/-- Case: pure green of ProPhoto at half of the range has the luminance 0.7118741 · 0.5^1.8, to 0.0003 of the light. -/
example : ∃ (w : World) (c : Color) (X Y Z : ℝ), Gives w c .xyz [X, Y, Z] ∧ |Y - 0.7118741 * (1 / 2) ^ (1.8 : ℝ)| ≤ 0.0003 * (1 / 2) ^ (1.8 : ℝ) := by
  obtain ⟨w, h⟩ := exists_holds .ProPhotoRGB
  obtain ⟨X, Y, Z, h1, -, h2, -⟩ := C136_to_xyz_partial .ProPhotoRGB (by simp) (by simp) (by simp) w 0 h (rgbOf 0 (1 / 2) 0 (1 : Fl) (some 0)) 0 (1 / 2) 0 (isRgb_rgbOf _ _ (by norm_num)) rfl (by simp)
  refine ⟨w, _, X, Y, Z, h1, ?_⟩
  have z : (0 : ℝ) ^ (1.8 : ℝ) = 0 := Real.zero_rpow (by norm_num)
  simpa [light, PresetSpec.matrix, z] using h2

end
