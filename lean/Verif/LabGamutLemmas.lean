import Verif.Props.CieTrips

/-!
# Bounds on LAB components used by C158

The LAB class keeps a and b between -128 and 128.  Exact arithmetic.
-/

open Outcome Fl Prog ObjectSpec ConvSpec Hue

namespace LabSpec

/-- The preset colour spaces all of whose colours have LAB components between -128 and 128. -/
def Fits : SpacePreset → Prop
  | .sRGB | .pal_secam | .americaNTSC | .appleRGB | .dci_p3 | .bruceRGB | .colorMatchRGB | .SMPTE_C_RGB => True
  | _ => False

end LabSpec

namespace LabGamut

/-! ## The function `f` of LAB -/

/-- `f` is nowhere below the cube root. -/
theorem cube_le_labF {s : ℝ} (s0 : 0 ≤ s) : s ≤ labF (s ^ 3) := by
  rcases labF_cases (pow_nonneg s0 3) with ⟨h1, h2, -⟩ | ⟨-, -, h3⟩
  · exact le_of_eq ((pow_left_inj₀ s0 (by linarith) (by norm_num : 3 ≠ 0)).mp h2.symm)
  · rw [h3]
    nlinarith [mul_nonneg (sq_nonneg (s - 6 / 29)) (by linarith : (0 : ℝ) ≤ s + 12 / 29)]

/-- `f α` exceeds `f β` by at most `D` when `α` is below the cube of `β^(1/3) + D`. -/
theorem labF_gap {α β D : ℝ} (ha : 0 ≤ α) (hb : 0 ≤ β) (hD : 2 / 29 ≤ D) (h : ∀ s, 0 ≤ s → s ^ 3 = β → α ≤ (s + D) ^ 3) : labF α - labF β ≤ D := by
  have s0 : 0 ≤ β ^ (1 / 3 : ℝ) := Real.rpow_nonneg hb _
  have s3 : (β ^ (1 / 3 : ℝ)) ^ 3 = β := by rw [← Real.rpow_natCast, ← Real.rpow_mul hb]; norm_num
  have hs := cube_le_labF s0
  rw [s3] at hs
  have hβ : 4 / 29 ≤ labF β := by rcases labF_cases hb with hh | hh <;> linarith [hh.1]
  rcases labF_cases ha with ⟨h1, h2, -⟩ | ⟨-, h2, -⟩
  · by_contra hh
    push Not at hh
    have := pow_lt_pow_left₀ (show β ^ (1 / 3 : ℝ) + D < labF α by linarith) (by positivity) (n := 3) (by norm_num)
    have := h _ s0 s3
    linarith
  · linarith

theorem cube_step {s a b m e D α : ℝ} (h0 : a ≤ s) (h1 : s ≤ b) (ha : 0 ≤ a) (hD : 0 ≤ D) (hm : 0 ≤ m) (hα : α ≤ m * s ^ 3 + e) (hn : m * b ^ 3 + e ≤ (a + D) ^ 3) :
    α ≤ (s + D) ^ 3 := by
  have s0 : 0 ≤ s := ha.trans h0
  have : m * s ^ 3 ≤ m * b ^ 3 := by gcongr
  have : (a + D) ^ 3 ≤ (s + D) ^ 3 := by gcongr
  linarith

theorem gap_red {x y : ℝ} (x0 : 0 ≤ x) (y0 : 0 ≤ y) (y1 : y ≤ 1) (h0 : x ≤ 2.64 * y + 0) (h1 : x ≤ 2.24 * y + 0.031) (h2 : x ≤ 0.42 * y + 0.591) (h3 : x ≤ 0 * y + 1) : labF x - labF y ≤ 0.256 := by
  refine labF_gap x0 y0 (by norm_num) fun s s0 hs => ?_
  have s1 : s ≤ 1 := by
    by_contra hh
    push Not at hh
    have := one_lt_pow₀ hh (n := 3) (by norm_num)
    linarith
  rw [← hs] at h0 h1 h2 h3
  rcases le_total s 0.185 with t | t
  · exact cube_step (a := 0) s0 t (by norm_num) (by norm_num) (by norm_num) h0 (by norm_num)
  have g := t
  rcases le_total s 0.319 with t | t
  · exact cube_step (a := 0.185) g t (by norm_num) (by norm_num) (by norm_num) h0 (by norm_num)
  have g := t
  rcases le_total s 0.416 with t | t
  · exact cube_step (a := 0.319) g t (by norm_num) (by norm_num) (by norm_num) h0 (by norm_num)
  have g := t
  rcases le_total s 0.495 with t | t
  · exact cube_step (a := 0.416) g t (by norm_num) (by norm_num) (by norm_num) h1 (by norm_num)
  have g := t
  rcases le_total s 0.559 with t | t
  · exact cube_step (a := 0.495) g t (by norm_num) (by norm_num) (by norm_num) h1 (by norm_num)
  have g := t
  rcases le_total s 0.61 with t | t
  · exact cube_step (a := 0.559) g t (by norm_num) (by norm_num) (by norm_num) h1 (by norm_num)
  have g := t
  rcases le_total s 0.651 with t | t
  · exact cube_step (a := 0.61) g t (by norm_num) (by norm_num) (by norm_num) h1 (by norm_num)
  have g := t
  rcases le_total s 0.717 with t | t
  · exact cube_step (a := 0.651) g t (by norm_num) (by norm_num) (by norm_num) h2 (by norm_num)
  have g := t
  rcases le_total s 0.922 with t | t
  · exact cube_step (a := 0.717) g t (by norm_num) (by norm_num) (by norm_num) h2 (by norm_num)
  have g := t
  exact cube_step (a := 0.922) g s1 (by norm_num) (by norm_num) (by norm_num) h3 (by norm_num)

theorem gap_green {y x : ℝ} (y0 : 0 ≤ y) (x0 : 0 ≤ x) (x1 : x ≤ 1) (h0 : y ≤ 2.48 * x + 0) (h1 : y ≤ 0.45 * x + 0.566) (h2 : y ≤ 0 * x + 1) : labF y - labF x ≤ 0.256 := by
  refine labF_gap y0 x0 (by norm_num) fun s s0 hs => ?_
  have s1 : s ≤ 1 := by
    by_contra hh
    push Not at hh
    have := one_lt_pow₀ hh (n := 3) (by norm_num)
    linarith
  rw [← hs] at h0 h1 h2
  rcases le_total s 0.189 with t | t
  · exact cube_step (a := 0) s0 t (by norm_num) (by norm_num) (by norm_num) h0 (by norm_num)
  have g := t
  rcases le_total s 0.328 with t | t
  · exact cube_step (a := 0.189) g t (by norm_num) (by norm_num) (by norm_num) h0 (by norm_num)
  have g := t
  rcases le_total s 0.431 with t | t
  · exact cube_step (a := 0.328) g t (by norm_num) (by norm_num) (by norm_num) h0 (by norm_num)
  have g := t
  rcases le_total s 0.507 with t | t
  · exact cube_step (a := 0.431) g t (by norm_num) (by norm_num) (by norm_num) h0 (by norm_num)
  have g := t
  rcases le_total s 0.563 with t | t
  · exact cube_step (a := 0.507) g t (by norm_num) (by norm_num) (by norm_num) h0 (by norm_num)
  have g := t
  rcases le_total s 0.605 with t | t
  · exact cube_step (a := 0.563) g t (by norm_num) (by norm_num) (by norm_num) h0 (by norm_num)
  have g := t
  rcases le_total s 0.636 with t | t
  · exact cube_step (a := 0.605) g t (by norm_num) (by norm_num) (by norm_num) h0 (by norm_num)
  have g := t
  rcases le_total s 0.683 with t | t
  · exact cube_step (a := 0.636) g t (by norm_num) (by norm_num) (by norm_num) h1 (by norm_num)
  have g := t
  rcases le_total s 0.834 with t | t
  · exact cube_step (a := 0.683) g t (by norm_num) (by norm_num) (by norm_num) h1 (by norm_num)
  have g := t
  exact cube_step (a := 0.834) g s1 (by norm_num) (by norm_num) (by norm_num) h2 (by norm_num)

theorem gap_yellow {y z : ℝ} (y0 : 0 ≤ y) (z0 : 0 ≤ z) (z1 : z ≤ 1) (h0 : y ≤ 16.7 * z + 0.229) (h1 : y ≤ 0.08 * z + 0.921) (h2 : y ≤ 0 * z + 1) : labF y - labF z ≤ 0.64 := by
  refine labF_gap y0 z0 (by norm_num) fun s s0 hs => ?_
  have s1 : s ≤ 1 := by
    by_contra hh
    push Not at hh
    have := one_lt_pow₀ hh (n := 3) (by norm_num)
    linarith
  rw [← hs] at h0 h1 h2
  rcases le_total s 0.125 with t | t
  · exact cube_step (a := 0) s0 t (by norm_num) (by norm_num) (by norm_num) h0 (by norm_num)
  have g := t
  rcases le_total s 0.235 with t | t
  · exact cube_step (a := 0.125) g t (by norm_num) (by norm_num) (by norm_num) h0 (by norm_num)
  have g := t
  rcases le_total s 0.297 with t | t
  · exact cube_step (a := 0.235) g t (by norm_num) (by norm_num) (by norm_num) h0 (by norm_num)
  have g := t
  rcases le_total s 0.328 with t | t
  · exact cube_step (a := 0.297) g t (by norm_num) (by norm_num) (by norm_num) h0 (by norm_num)
  have g := t
  rcases le_total s 0.343 with t | t
  · exact cube_step (a := 0.328) g t (by norm_num) (by norm_num) (by norm_num) h0 (by norm_num)
  have g := t
  rcases le_total s 0.711 with t | t
  · exact cube_step (a := 0.343) g t (by norm_num) (by norm_num) (by norm_num) h1 (by norm_num)
  have g := t
  exact cube_step (a := 0.711) g s1 (by norm_num) (by norm_num) (by norm_num) h2 (by norm_num)

theorem gap_blue {z y : ℝ} (z0 : 0 ≤ z) (y0 : 0 ≤ y) (y1 : y ≤ 1) (h0 : z ≤ 12.53 * y + 0) (h1 : z ≤ 0 * y + 1) : labF z - labF y ≤ 0.64 := by
  refine labF_gap z0 y0 (by norm_num) fun s s0 hs => ?_
  have s1 : s ≤ 1 := by
    by_contra hh
    push Not at hh
    have := one_lt_pow₀ hh (n := 3) (by norm_num)
    linarith
  rw [← hs] at h0 h1
  rcases le_total s 0.275 with t | t
  · exact cube_step (a := 0) s0 t (by norm_num) (by norm_num) (by norm_num) h0 (by norm_num)
  have g := t
  rcases le_total s 0.393 with t | t
  · exact cube_step (a := 0.275) g t (by norm_num) (by norm_num) (by norm_num) h0 (by norm_num)
  have g := t
  exact cube_step (a := 0.393) g s1 (by norm_num) (by norm_num) (by norm_num) h1 (by norm_num)

/-- The straight lines used by the four bounds. -/
structure Lines (x y z : ℝ) : Prop where
  x0 : 0 ≤ x
  y0 : 0 ≤ y
  z0 : 0 ≤ z
  x1 : x ≤ 1
  y1 : y ≤ 1
  z1 : z ≤ 1
  red0 : x ≤ 2.64 * y + 0
  red1 : x ≤ 2.24 * y + 0.031
  red2 : x ≤ 0.42 * y + 0.591
  red3 : x ≤ 0 * y + 1
  green0 : y ≤ 2.48 * x + 0
  green1 : y ≤ 0.45 * x + 0.566
  green2 : y ≤ 0 * x + 1
  yellow0 : y ≤ 16.7 * z + 0.229
  yellow1 : y ≤ 0.08 * z + 0.921
  yellow2 : y ≤ 0 * z + 1
  blue0 : z ≤ 12.53 * y + 0
  blue1 : z ≤ 0 * y + 1

theorem Lines.inside {x y z : ℝ} (h : Lines x y z) : |500 * (labF x - labF y)| ≤ 128 ∧ |200 * (labF y - labF z)| ≤ 128 := by
  have red := gap_red h.x0 h.y0 h.y1 h.red0 h.red1 h.red2 h.red3
  have green := gap_green h.y0 h.x0 h.x1 h.green0 h.green1 h.green2
  have yellow := gap_yellow h.y0 h.z0 h.z1 h.yellow0 h.yellow1 h.yellow2
  have blue := gap_blue h.z0 h.y0 h.y1 h.blue0 h.blue1
  rw [abs_le, abs_le]
  refine ⟨⟨?_, ?_⟩, ?_, ?_⟩ <;> linarith

theorem white_pos (p : SpacePreset) (i : Fin 3) : 0 < presetWhite p i := by
  cases p <;> fin_cases i <;> simp [presetWhite, SpacePreset.white, WhitePreset.literals] <;> norm_num

macro "fitting " p:term:max : tactic => `(tactic| (
  refine ⟨?_, ?_, fun l hl X hX => ?_⟩
  · ext i; fin_cases i <;> simp [Matrix.mulVec, dotProduct, Fin.sum_univ_three, presetPrimaries, presetWhite, ccMat, SpacePreset.primaries, SpacePreset.white, WhitePreset.literals] <;> norm_num
  · intro i; fin_cases i <;> simp
  · have e0 := hX 0
    have e1 := hX 1
    have e2 := hX 2
    have l0 := hl 0
    have l1 := hl 1
    have l2 := hl 2
    simp [presetPrimaries, ccMat, SpacePreset.primaries] at e0 e1 e2
    norm_num at e0 e1 e2
    have f0 := div_mul_cancel₀ (X 0) (white_pos $p 0).ne'
    have f1 := div_mul_cancel₀ (X 1) (white_pos $p 1).ne'
    have f2 := div_mul_cancel₀ (X 2) (white_pos $p 2).ne'
    generalize X 0 / presetWhite $p 0 = x at f0 ⊢
    generalize X 1 / presetWhite $p 1 = y at f1 ⊢
    generalize X 2 / presetWhite $p 2 = z at f2 ⊢
    simp only [presetWhite, SpacePreset.white, WhitePreset.literals, Matrix.cons_val_zero, Matrix.cons_val_one, Matrix.cons_val, e0, e1, e2] at f0 f1 f2
    constructor <;> linarith [l0.1, l0.2, l1.1, l1.2, l2.1, l2.2]))

/-- The weights of the primaries of a preset and the lines its colours stay below. -/
def Weighted (p : SpacePreset) (k : Fin 3 → ℝ) : Prop :=
  (presetPrimaries p).mulVec k = presetWhite p ∧ (∀ i, 0 < k i) ∧ ∀ l : Fin 3 → ℝ, (∀ i, 0 ≤ l i ∧ l i ≤ 1) → ∀ X : Fin 3 → ℝ,
    (∀ i, X i = presetPrimaries p i 0 * k 0 * l 0 + presetPrimaries p i 1 * k 1 * l 1 + presetPrimaries p i 2 * k 2 * l 2) →
    Lines (X 0 / presetWhite p 0) (X 1 / presetWhite p 1) (X 2 / presetWhite p 2)

theorem weighted_sRGB : Weighted .sRGB ![60164/93375, 3339089/2801250, 67391/56025] := by fitting .sRGB

theorem weighted_pal_secam : Weighted .pal_secam ![953563/1417500, 3339089/2835000, 3369917/2835000] := by fitting .pal_secam

theorem weighted_americaNTSC : Weighted .americaNTSC ![6481021/10376250, 6113228/5188125, 6414011/5188125] := by fitting .americaNTSC

theorem weighted_appleRGB : Weighted .appleRGB ![1532381/2130000, 6014821/5325000, 4225311/3550000] := by fitting .appleRGB

theorem weighted_dci_p3 : Weighted .dci_p3 ![2236/3125, 3133/3125, 8257/6250] := by fitting .dci_p3

theorem weighted_bruceRGB : Weighted .bruceRGB ![2318407/3175000, 3339089/3175000, 997991/793750] := by fitting .bruceRGB

theorem weighted_colorMatchRGB : Weighted .colorMatchRGB ![13968823/17278000, 75183/69112, 38572381/43195000] := by fitting .colorMatchRGB

theorem weighted_SMPTE_C_RGB : Weighted .SMPTE_C_RGB ![6481021/10376250, 6113228/5188125, 6414011/5188125] := by fitting .SMPTE_C_RGB

/-- All colours of the presets of `LabSpec.Fits` stay below the lines. -/
theorem fitting_weights (p : SpacePreset) (hp : LabSpec.Fits p) : ∃ k, Weighted p k := by
  cases p <;> simp only [LabSpec.Fits] at hp
  case sRGB => exact ⟨_, weighted_sRGB⟩
  case pal_secam => exact ⟨_, weighted_pal_secam⟩
  case americaNTSC => exact ⟨_, weighted_americaNTSC⟩
  case appleRGB => exact ⟨_, weighted_appleRGB⟩
  case dci_p3 => exact ⟨_, weighted_dci_p3⟩
  case bruceRGB => exact ⟨_, weighted_bruceRGB⟩
  case colorMatchRGB => exact ⟨_, weighted_colorMatchRGB⟩
  case SMPTE_C_RGB => exact ⟨_, weighted_SMPTE_C_RGB⟩

end LabGamut
