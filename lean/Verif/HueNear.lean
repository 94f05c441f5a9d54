import Verif.NearLemmas
import Verif.Props.RoundTrips

/-!
# Hue and its inverse with rounding errors

Helper lemmas: how far the hue that the code computes is from the hue of the colour, and how far the channels computed from a hue
are from the channels of that hue.
-/

open Outcome Fl Prog ObjectSpec ConvSpec

namespace Hue

/-! ## The weight of a channel in HSV, as a continuous function -/

/-- One tooth of the weight. -/
noncomputable def tooth (x : ℝ) : ℝ := max (min x (min (4 - x) 1)) 0

/-- The weight, continuous on `-2 … 12`. -/
noncomputable def weight (x : ℝ) : ℝ := tooth x + tooth (x - 6)

theorem tooth_lip (x y : ℝ) : |tooth x - tooth y| ≤ |x - y| := by
  unfold tooth
  refine (abs_max_sub_max_le_max _ _ _ _).trans (max_le ?_ (by simp))
  refine (abs_min_sub_min_le_max _ _ _ _).trans (max_le le_rfl ?_)
  refine (abs_min_sub_min_le_max _ _ _ _).trans (max_le ?_ (by simp))
  rw [show 4 - x - (4 - y) = -(x - y) by ring, abs_neg]

theorem weight_lip (x y : ℝ) : |weight x - weight y| ≤ 2 * |x - y| := by
  unfold weight
  have h1 := tooth_lip x y
  have h2 := tooth_lip (x - 6) (y - 6)
  rw [show x - 6 - (y - 6) = x - y by ring] at h2
  rw [show tooth x + tooth (x - 6) - (tooth y + tooth (y - 6)) = (tooth x - tooth y) + (tooth (x - 6) - tooth (y - 6)) by ring]
  exact (abs_add_le _ _).trans (by linarith)

theorem tooth_low {x : ℝ} (h : x ≤ 0) : tooth x = 0 := by
  unfold tooth; rw [max_eq_right]; exact (min_le_left _ _).trans h

theorem tooth_high {x : ℝ} (h : 4 ≤ x) : tooth x = 0 := by
  unfold tooth; rw [max_eq_right]; exact (min_le_right _ _).trans ((min_le_left _ _).trans (by linarith))

theorem tooth_range (x : ℝ) : 0 ≤ tooth x ∧ tooth x ≤ 1 := by
  unfold tooth
  exact ⟨le_max_right _ _, max_le ((min_le_right _ _).trans (min_le_right _ _)) (by norm_num)⟩

theorem weight_eq {x : ℝ} (_h0 : 0 ≤ x) (_h1 : x < 12) : hsvW x = weight x := by
  unfold hsvW weight wrap
  split
  · rw [tooth_low (x := x - 6) (by linarith), add_zero]; rfl
  · rw [tooth_high (x := x) (by linarith), zero_add]; rfl

theorem weight_period {x : ℝ} (h0 : -2 ≤ x) (h1 : x ≤ 6) : weight (x + 6) = weight x := by
  unfold weight
  rw [tooth_high (x := x + 6) (by linarith), tooth_low (x := x - 6) (by linarith), show x + 6 - 6 = x by ring]; ring

theorem hsvW_range (x : ℝ) : 0 ≤ hsvW x ∧ hsvW x ≤ 1 := tooth_range (wrap 6 x)

/-- Position of a stored hue: `x` degrees stands for sector `k`, fraction `u`; `x` may be slightly negative. -/
def Stands (k : Sector) (u x : ℝ) : Prop := x = k.hue u ∨ k = .F ∧ x = k.hue u - 360

theorem weights_at {k : Sector} {u x : ℝ} (u0 : 0 ≤ u) (u1 : u ≤ 1) (h : Stands k u x) :
    weight (5 + x / 60) = 1 - k.red u ∧ weight (3 + x / 60) = 1 - k.green u ∧ weight (1 + x / 60) = 1 - k.blue u := by
  obtain ⟨w1, w2, w3⟩ := @hsv_weights Fl.exactFloat Fl.exactFloat_exact k u u0 u1
  obtain ⟨h0, h1⟩ := lim_hue k u0 u1
  rw [weight_eq (by positivity) (by linarith)] at w1 w2 w3
  rcases h with rfl | ⟨rfl, rfl⟩
  · exact ⟨w1, w2, w3⟩
  · simp only [Sector.hue] at *
    refine ⟨?_, ?_, ?_⟩
    · rw [← w1, ← weight_period (by linarith) (by linarith)]; congr 1; ring
    · rw [← w2, ← weight_period (by linarith) (by linarith)]; congr 1; ring
    · rw [← w3, ← weight_period (by linarith) (by linarith)]; congr 1; ring

/-! ## The hue -/

variable [FloatModel] [SmallError]

/-- A difference of two channels. -/
theorem diff_near {x y : ℝ} (h : |x - y| ≤ 1) : ∃ p, fin x - fin y = fin p ∧ |p - (x - y)| ≤ 2 / 1000000 := by
  obtain ⟨p, h1, h2⟩ := near_rnd (r := x - y) (h.trans (by norm_num))
  exact ⟨p, by rw [fin_sub, h1], by linarith⟩

omit [SmallError] in
/-- Rounding keeps the sign. -/
theorem diff_nonneg {x y p : ℝ} (h : y ≤ x) (hp : fin x - fin y = fin p) : 0 ≤ p := by
  rw [fin_sub] at hp
  have : rnd (0 : ℝ) ≤ rnd (x - y) := FloatModel.rnd_mono _ _ (by linarith)
  rw [FloatModel.rnd_zero, hp] at this
  simpa using this

theorem quot_near {a δ p d : ℝ} (ha : |a| ≤ δ) (hp : |p - a| ≤ 2 / 1000000) (hd : |d - δ| ≤ 2 / 1000000) (δ0 : 1 / 10000 ≤ δ) (δ1 : δ ≤ 1) :
    ∃ q, fin p / fin d = fin q ∧ |q - a / δ| * δ ≤ 7 / 1000000 ∧ |q| ≤ 11 / 10 ∧ (0 ≤ p → 0 ≤ q) := by
  have hδ : 0 < δ := by linarith
  have hd' := abs_le.mp hd
  have hp' := abs_le.mp hp
  have ha' := abs_le.mp ha
  have hd0 : 0 < d := by linarith
  have hdδ : 98 / 100 * δ ≤ d := by linarith
  have e : |p / d - a / δ| * δ ≤ 41 / 10000000 := by
    have : (p / d - a / δ) * δ = (p - a) * (δ / d) + a / δ * ((δ - d) * (δ / d)) := by field_simp; ring
    rw [← abs_of_pos hδ, ← abs_mul, abs_of_pos hδ, this]
    have hr : |δ / d| ≤ 102041 / 100000 := by
      rw [abs_of_pos (by positivity), div_le_iff₀ hd0]; linarith
    have hq : |a / δ| ≤ 1 := by rw [abs_div, abs_of_pos hδ, div_le_one hδ]; exact ha
    have hd2 : |δ - d| ≤ 2 / 1000000 := by rw [abs_sub_comm]; exact hd
    refine (abs_add_le _ _).trans ?_
    rw [abs_mul, abs_mul, abs_mul]
    have h1 : |p - a| * |δ / d| ≤ 2 / 1000000 * (102041 / 100000) := by gcongr
    have h2 : |a / δ| * (|δ - d| * |δ / d|) ≤ 1 * (2 / 1000000 * (102041 / 100000)) := by gcongr
    linarith
  have hb : |p / d| ≤ 105 / 100 := by
    rw [abs_div, abs_of_pos hd0, div_le_iff₀ hd0]
    have := abs_add_le (p - a) a
    rw [sub_add_cancel] at this
    linarith
  obtain ⟨q, h1, h2⟩ := near_rnd (r := p / d) (hb.trans (by norm_num))
  have h3 : |q - p / d| ≤ 205 / 100000000 := by linarith
  refine ⟨q, by rw [fin_div _ _ hd0.ne', h1], ?_, ?_, ?_⟩
  · have := abs_sub_le q (p / d) (a / δ)
    calc |q - a / δ| * δ ≤ (|q - p / d| + |p / d - a / δ|) * δ := by gcongr
      _ = |q - p / d| * δ + |p / d - a / δ| * δ := by ring
      _ ≤ 205 / 100000000 * 1 + 41 / 10000000 := by gcongr
      _ ≤ _ := by norm_num
  · have := abs_add_le (q - p / d) (p / d)
    rw [sub_add_cancel] at this
    linarith
  · intro p0
    have : rnd (0 : ℝ) ≤ rnd (p / d) := FloatModel.rnd_mono _ _ (by positivity)
    rw [FloatModel.rnd_zero, h1] at this
    simpa using this

/-- A hue well inside the circle is stored as it is. -/
theorem store_id {h : ℝ} (h0 : 0 ≤ h) (h1 : h ≤ 359) : Color.clamp (Color.hueReduce (fin h)) 359 0 = fin h := by
  rw [Color.hueReduce_id h0 (by linarith)]
  simp only [lit_def, zero_def]
  rw [Color.clamp_fin, min_eq_left h1, max_eq_left h0]

theorem sixty {z : ℝ} (hz : |z| ≤ 6) : ∃ h, fin 60 * fin z = fin h ∧ |h - 60 * z| ≤ 61 * |z| / 1000000 + 1 / 1000000 ∧ (0 ≤ z → 0 ≤ h) := by
  have h6 : |60 * z| = 60 * |z| := by rw [abs_mul, abs_of_pos (by norm_num : (0:ℝ) < 60)]
  obtain ⟨h, e1, e2⟩ := near_rnd (r := 60 * z) (by rw [h6]; linarith)
  refine ⟨h, by rw [fin_mul, e1], ?_, ?_⟩
  · rw [h6] at e2; have := abs_nonneg z; linarith
  · intro z0
    have : rnd (0 : ℝ) ≤ rnd (60 * z) := FloatModel.rnd_mono _ _ (by positivity)
    rw [FloatModel.rnd_zero, e1] at this
    simpa using this

set_option maxHeartbeats 1000000 in
/-- What the code stores as hue of a colour that is not too grey: the hue of the colour, or of the colour with blue channel `gapBlue`, up to
an error inversely proportional to the chroma. -/
theorem hue_near {r g b mx mn : ℝ} (hmx : max (max r g) b = mx) (hmn : min (min r g) b = mn) (h0 : 0 ≤ mn) (h1 : mx ≤ 1) (hδ0 : 1 / 10000 ≤ mx - mn) :
    ∃ H x k u b', Color.clamp (Color.hueReduce (Leaf.hueFromRgb (fin r) (fin g) (fin b) (fin mx) (fin mx - fin mn))) 359 0 = fin H ∧
      0 ≤ H ∧ H ≤ 359 ∧ 0 ≤ u ∧ u ≤ 1 ∧ Stands k u x ∧ |H - x| * (mx - mn) ≤ 1 / 800 ∧
      r = mn + (mx - mn) * k.red u ∧ g = mn + (mx - mn) * k.green u ∧ b' = mn + (mx - mn) * k.blue u ∧ (b' = b ∧ (HueGap r g b → b - g ≤ 1 / 100000) ∨ b' = gapBlue r g b ∧ HueGap r g b) := by
  have hr1 : mn ≤ r := by rw [← hmn]; exact (min_le_left _ _).trans (min_le_left _ _)
  have hg1 : mn ≤ g := by rw [← hmn]; exact (min_le_left _ _).trans (min_le_right _ _)
  have hb1 : mn ≤ b := by rw [← hmn]; exact min_le_right _ _
  have hr2 : r ≤ mx := by rw [← hmx]; exact (le_max_left _ _).trans (le_max_left _ _)
  have hg2 : g ≤ mx := by rw [← hmx]; exact (le_max_right _ _).trans (le_max_left _ _)
  have hb2 : b ≤ mx := by rw [← hmx]; exact le_max_right _ _
  set δ := mx - mn with hδ
  have δ1 : δ ≤ 1 := by linarith
  have δp : 0 < δ := by linarith
  obtain ⟨d, ed, nd⟩ := diff_near (x := mx) (y := mn) (by rw [abs_of_pos δp]; exact δ1)
  have sect : ∀ (k : Sector) (u : ℝ), r = mn + δ * k.red u → g = mn + δ * k.green u → b = mn + δ * k.blue u → 0 ≤ u → u ≤ 1 → (HueGap r g b → b - g ≤ 1 / 100000) →
      ∀ H x, Color.clamp (Color.hueReduce (Leaf.hueFromRgb (fin r) (fin g) (fin b) (fin mx) (fin mx - fin mn))) 359 0 = fin H → 0 ≤ H → H ≤ 359 →
      Stands k u x → |H - x| * δ ≤ 1 / 800 → ∃ H x k u b', Color.clamp (Color.hueReduce (Leaf.hueFromRgb (fin r) (fin g) (fin b) (fin mx) (fin mx - fin mn))) 359 0 = fin H ∧
      0 ≤ H ∧ H ≤ 359 ∧ 0 ≤ u ∧ u ≤ 1 ∧ Stands k u x ∧ |H - x| * δ ≤ 1 / 800 ∧
      r = mn + δ * k.red u ∧ g = mn + δ * k.green u ∧ b' = mn + δ * k.blue u ∧ (b' = b ∧ (HueGap r g b → b - g ≤ 1 / 100000) ∨ b' = gapBlue r g b ∧ HueGap r g b) :=
    fun k u e1 e2 e3 u0 u1 hg H x hH H0 H1 hs hn => ⟨H, x, k, u, b, hH, H0, H1, u0, u1, hs, hn, e1, e2, e3, .inl ⟨rfl, hg⟩⟩
  by_cases c1 : mx = r
  · -- red is the largest channel
    have hgb : |g - b| ≤ δ := by rw [abs_le]; constructor <;> linarith
    obtain ⟨p, ep, np⟩ := diff_near (hgb.trans δ1)
    obtain ⟨q, eq, nq, bq, sq⟩ := quot_near hgb np nd hδ0 δ1
    obtain ⟨h, eh, nh, sh⟩ := sixty (bq.trans (by norm_num))
    have bq' := abs_le.mp bq
    have hcode : Leaf.hueFromRgb (fin r) (fin g) (fin b) (fin mx) (fin mx - fin mn) = fin h := by
      simp only [Leaf.hueFromRgb, feq_fin, if_pos c1, lit_def]
      rw [ed, ep, eq, fmod_lt (by norm_num) (by linarith) (by linarith), eh]
    have nh2 : |h - 60 * q| ≤ 7 / 100000 := by linarith
    have nh' := abs_le.mp nh2
    have ntot : |h - 60 * ((g - b) / δ)| * δ ≤ 1 / 2000 := by
      have : |h - 60 * ((g - b) / δ)| ≤ |h - 60 * q| + 60 * |q - (g - b) / δ| := by
        rw [show h - 60 * ((g - b) / δ) = (h - 60 * q) + 60 * (q - (g - b) / δ) by ring]
        refine (abs_add_le _ _).trans ?_
        rw [abs_mul, abs_of_pos (by norm_num : (0:ℝ) < 60)]
      calc |h - 60 * ((g - b) / δ)| * δ ≤ (|h - 60 * q| + 60 * |q - (g - b) / δ|) * δ := by gcongr
        _ = |h - 60 * q| * δ + 60 * (|q - (g - b) / δ| * δ) := by ring
        _ ≤ 7 / 100000 * 1 + 60 * (7 / 1000000) := by gcongr
        _ ≤ _ := by norm_num
    by_cases hh : 0 ≤ h
    · have hst : Color.clamp (Color.hueReduce (Leaf.hueFromRgb (fin r) (fin g) (fin b) (fin mx) (fin mx - fin mn))) 359 0 = fin h := by
        rw [hcode]; exact store_id hh (by linarith)
      by_cases c2 : b ≤ g
      · have hbmn : b = mn := le_antisymm (by rw [← hmn]; exact le_min (le_min (by rw [← c1]; exact hb2) c2) le_rfl) hb1
        refine sect .A ((g - b) / δ) ?_ ?_ ?_ (div_nonneg (by linarith) δp.le) (by rw [div_le_one δp]; linarith) (fun hg => absurd hg.1 (not_lt.mpr c2)) h (60 * ((g - b) / δ)) hst hh (by linarith) (.inl rfl) (by linarith)
        · simp only [Sector.red]; linarith
        · simp only [Sector.green]; field_simp; linarith
        · simp only [Sector.blue]; linarith
      · push Not at c2
        have hgmn : g = mn := le_antisymm (by rw [← hmn]; exact le_min (le_min (by rw [← c1]; exact hg2) le_rfl) c2.le) hg1
        refine sect .F ((b - g) / δ) ?_ ?_ ?_ (div_nonneg (by linarith) δp.le) (by rw [div_le_one δp]; linarith) (fun _ => ?_) h (60 * ((g - b) / δ)) hst hh (by linarith) (.inr ⟨rfl, ?_⟩) (by linarith)
        · simp only [Sector.red]; linarith
        · simp only [Sector.green]; linarith
        · simp only [Sector.blue]; field_simp; linarith
        · have e : (h - 60 * ((g - b) / δ)) * δ = h * δ + 60 * (b - g) := by field_simp; ring
          have := le_abs_self ((h - 60 * ((g - b) / δ)) * δ)
          rw [abs_mul, abs_of_pos δp, e] at this
          have : 0 ≤ h * δ := mul_nonneg hh δp.le
          linarith
        · simp only [Sector.hue]; ring
    · have hneg : h < 0 := not_le.mp hh
      have c2 : g < b := by
        by_contra c2
        exact hh (sh (sq (diff_nonneg (not_lt.mp c2) ep)))
      have hgmn : g = mn := le_antisymm (by rw [← hmn]; exact le_min (le_min (by rw [← c1]; exact hg2) le_rfl) c2.le) hg1
      obtain ⟨h', eh', nh''⟩ := near_rnd (r := h + 360) (by rw [abs_of_pos (by linarith)]; linarith)
      rw [abs_of_pos (a := h + 360) (by linarith)] at nh''
      have nh3 : |h' - (h + 360)| ≤ 4 / 10000 := by linarith
      have nh4 := abs_le.mp nh3
      have hst : Color.clamp (Color.hueReduce (fin h)) 359 0 = fin (min h' 359) := by
        unfold Color.hueReduce
        simp only [lit_def, zero_def]
        rw [fmod_lt (by norm_num) (by linarith) (by linarith)]
        simp only [fin_lt, if_pos hneg]
        rw [fin_add, eh', Color.clamp_fin, max_eq_left (le_min (by linarith) (by norm_num))]
      rw [← hcode] at hst
      set u0 := (b - g) / δ with hu0
      have u00 : 0 < u0 := div_pos (by linarith) δp
      have u01 : u0 ≤ 1 := by rw [hu0, div_le_one δp]; linarith
      have hq' : (g - b) / δ = - u0 := by rw [hu0]; ring
      rw [hq'] at ntot
      -- distance before limiting
      have nlim : |min h' 359 - min (60 * (6 - u0)) 359| * δ ≤ 1 / 800 := by
        have : |min h' 359 - min (60 * (6 - u0)) 359| ≤ |h' - 60 * (6 - u0)| :=
          (abs_min_sub_min_le_max _ _ _ _).trans (max_le le_rfl (by simp))
        have h2 : |h' - 60 * (6 - u0)| ≤ |h' - (h + 360)| + |h - 60 * -u0| := by
          rw [show h' - 60 * (6 - u0) = (h' - (h + 360)) + (h - 60 * -u0) by ring]; exact abs_add_le _ _
        calc _ ≤ (|h' - (h + 360)| + |h - 60 * -u0|) * δ := by gcongr; exact this.trans h2
          _ = |h' - (h + 360)| * δ + |h - 60 * -u0| * δ := by ring
          _ ≤ 4 / 10000 * 1 + 1 / 2000 := by gcongr
          _ ≤ _ := by norm_num
      have H0 : 0 ≤ min h' 359 := le_min (by linarith) (by norm_num)
      by_cases hu : 1 / 60 ≤ u0
      · rw [min_eq_left (a := 60 * (6 - u0)) (by linarith)] at nlim
        refine sect .F u0 ?_ ?_ ?_ u00.le u01 (fun hg => absurd hg.2 (not_lt.mpr ?_)) (min h' 359) (60 * (6 - u0)) hst H0 (min_le_right _ _) (.inl rfl) nlim
        · simp only [Sector.red]; linarith
        · simp only [Sector.green]; linarith
        · simp only [Sector.blue, hu0]; field_simp; linarith
        · have hbu : b - g = u0 * δ := by rw [hu0]; field_simp
          nlinarith
      · rw [not_le] at hu
        rw [min_eq_right (a := 60 * (6 - u0)) (by linarith)] at nlim
        have hbu : b - g = u0 * δ := by rw [hu0]; field_simp
        have hgap : HueGap r g b := ⟨c2, by nlinarith⟩
        refine ⟨min h' 359, 359, .F, 1 / 60, gapBlue r g b, hst, H0, min_le_right _ _, by norm_num, by norm_num, .inl ?_, nlim, ?_, ?_, ?_, .inr ⟨rfl, hgap⟩⟩
        · simp only [Sector.hue]; norm_num
        · simp only [Sector.red]; linarith
        · simp only [Sector.green]; linarith
        · simp only [Sector.blue, gapBlue, if_pos hgap]; rw [hgmn, ← c1, hδ]; ring
  · -- the two other cases only differ in names
    have other : ∀ (x y n : ℝ), 2 ≤ n → n ≤ 4 → |x - y| ≤ δ → ∃ h, fin 60 * ((fin x - fin y) / fin d + fin n) = fin h ∧ 0 ≤ h ∧ h ≤ 359 ∧
        |h - 60 * ((x - y) / δ + n)| * δ ≤ 1 / 800 := by
      intro x y n n2 n4 hxy
      obtain ⟨p, ep, np⟩ := diff_near (hxy.trans δ1)
      obtain ⟨q, eq, nq, bq, -⟩ := quot_near hxy np nd hδ0 δ1
      have bq' := abs_le.mp bq
      obtain ⟨z, ez, nz⟩ := near_rnd (r := q + n) (by rw [abs_of_nonneg (by linarith)]; linarith)
      rw [abs_of_nonneg (a := q + n) (by linarith)] at nz
      have nz2 : |z - (q + n)| ≤ 62 / 10000000 := by linarith
      have nz' := abs_le.mp nz2
      obtain ⟨h, eh, nh, -⟩ := sixty (z := z) (by rw [abs_of_nonneg (by linarith)]; linarith)
      rw [abs_of_nonneg (a := z) (by linarith)] at nh
      have nh2 : |h - 60 * z| ≤ 33 / 100000 := by linarith
      have nh' := abs_le.mp nh2
      refine ⟨h, by rw [ep, eq, fin_add, ez, eh], by linarith, by linarith, ?_⟩
      have : |h - 60 * ((x - y) / δ + n)| ≤ |h - 60 * z| + 60 * |z - (q + n)| + 60 * |q - (x - y) / δ| := by
        rw [show h - 60 * ((x - y) / δ + n) = (h - 60 * z) + 60 * (z - (q + n)) + 60 * (q - (x - y) / δ) by ring]
        refine (abs_add_le _ _).trans (add_le_add ((abs_add_le _ _).trans (add_le_add le_rfl ?_)) ?_) <;>
          rw [abs_mul, abs_of_pos (by norm_num : (0:ℝ) < 60)]
      calc |h - 60 * ((x - y) / δ + n)| * δ ≤ (|h - 60 * z| + 60 * |z - (q + n)| + 60 * |q - (x - y) / δ|) * δ := by gcongr
        _ = (|h - 60 * z| + 60 * |z - (q + n)|) * δ + 60 * (|q - (x - y) / δ| * δ) := by ring
        _ ≤ (33 / 100000 + 60 * (62 / 10000000)) * 1 + 60 * (7 / 1000000) := by gcongr
        _ ≤ _ := by norm_num
    have nogap : HueGap r g b → b - g ≤ 1 / 100000 := by
      intro hg; exfalso
      have : r < mx := lt_of_le_of_ne hr2 (Ne.symm c1)
      rcases max_choice (max r g) b with e | e
      · rcases max_choice r g with e' | e'
        · exact c1 (by rw [← hmx, e, e'])
        · rw [hmx, e'] at e; linarith [hg.1, hg.2]
      · rw [hmx] at e; linarith [hg.1, hg.2]
    by_cases c3 : mx = g
    · -- green
      have hlt : r < mx := lt_of_le_of_ne hr2 (Ne.symm c1)
      obtain ⟨h, eh, hh0, hh1, hn⟩ := other b r 2 le_rfl (by norm_num) (by rw [abs_le]; constructor <;> linarith)
      have hcode : Leaf.hueFromRgb (fin r) (fin g) (fin b) (fin mx) (fin mx - fin mn) = fin h := by
        simp only [Leaf.hueFromRgb, feq_fin, if_neg c1, if_pos c3, lit_def]
        rw [ed, eh]
      have hst : Color.clamp (Color.hueReduce (Leaf.hueFromRgb (fin r) (fin g) (fin b) (fin mx) (fin mx - fin mn))) 359 0 = fin h := by
        rw [hcode]; exact store_id hh0 hh1
      by_cases c2 : b ≤ r
      · have hbmn : b = mn := le_antisymm (by rw [← hmn]; exact le_min (le_min c2 (by rw [← c3]; exact hb2)) le_rfl) hb1
        refine sect .B ((r - b) / δ) ?_ ?_ ?_ (div_nonneg (by linarith) δp.le) (by rw [div_le_one δp]; linarith) nogap h _ hst hh0 hh1 (.inl ?_) hn
        · simp only [Sector.red]; field_simp; linarith
        · simp only [Sector.green]; linarith
        · simp only [Sector.blue]; linarith
        · simp only [Sector.hue]; ring
      · push Not at c2
        have hrmn : r = mn := le_antisymm (by rw [← hmn]; exact le_min (le_min le_rfl (by rw [← c3]; exact hr2)) c2.le) hr1
        refine sect .C ((b - r) / δ) ?_ ?_ ?_ (div_nonneg (by linarith) δp.le) (by rw [div_le_one δp]; linarith) nogap h _ hst hh0 hh1 (.inl ?_) hn
        · simp only [Sector.red]; linarith
        · simp only [Sector.green]; linarith
        · simp only [Sector.blue]; field_simp; linarith
        · simp only [Sector.hue]; ring
    · -- blue
      have c4 : mx = b := by
        rcases max_choice (max r g) b with h | h
        · rcases max_choice r g with h' | h'
          · exact absurd (by rw [← hmx, h, h']) c1
          · exact absurd (by rw [← hmx, h, h']) c3
        · rw [← hmx, h]
      obtain ⟨h, eh, hh0, hh1, hn⟩ := other r g 4 (by norm_num) le_rfl (by rw [abs_le]; constructor <;> linarith)
      have hcode : Leaf.hueFromRgb (fin r) (fin g) (fin b) (fin mx) (fin mx - fin mn) = fin h := by
        simp only [Leaf.hueFromRgb, feq_fin, if_neg c1, if_neg c3, lit_def]
        rw [ed, eh]
      have hst : Color.clamp (Color.hueReduce (Leaf.hueFromRgb (fin r) (fin g) (fin b) (fin mx) (fin mx - fin mn))) 359 0 = fin h := by
        rw [hcode]; exact store_id hh0 hh1
      by_cases c2 : r ≤ g
      · have hrmn : r = mn := le_antisymm (by rw [← hmn]; exact le_min (le_min le_rfl c2) (by rw [← c4]; exact hr2)) hr1
        refine sect .D ((g - r) / δ) ?_ ?_ ?_ (div_nonneg (by linarith) δp.le) (by rw [div_le_one δp]; linarith) nogap h _ hst hh0 hh1 (.inl ?_) hn
        · simp only [Sector.red]; linarith
        · simp only [Sector.green]; field_simp; linarith
        · simp only [Sector.blue]; linarith
        · simp only [Sector.hue]; ring
      · push Not at c2
        have hgmn : g = mn := le_antisymm (by rw [← hmn]; exact le_min (le_min c2.le le_rfl) (by rw [← c4]; exact hg2)) hg1
        refine sect .E ((r - g) / δ) ?_ ?_ ?_ (div_nonneg (by linarith) δp.le) (by rw [div_le_one δp]; linarith) nogap h _ hst hh0 hh1 (.inl ?_) hn
        · simp only [Sector.red]; field_simp; linarith
        · simp only [Sector.green]; linarith
        · simp only [Sector.blue]; linarith
        · simp only [Sector.hue]; ring

/-! ## HSV to RGB -/

/-- One channel of HSV to RGB. -/
theorem hsv_value {H S v n : ℝ} (H0 : 0 ≤ H) (H1 : H ≤ 359) (S0 : 0 ≤ S) (S1 : S ≤ 1) (v0 : 0 ≤ v) (v1 : v ≤ 1) (n0 : 0 ≤ n) (n1 : n ≤ 5) :
    Near (Leaf.hsvToRgb (fin H) (fin S) (fin v) (fin n)) (v - v * S * weight (n + H / 60)) (8 / 100000) := by
  simp only [Leaf.hsvToRgb, lit_def, zero_def, one_def]
  have hd0 : 0 ≤ H / 60 := by positivity
  have hd1 : H / 60 ≤ 6 := by linarith
  obtain ⟨e, he, ne⟩ := near_rnd (r := H / 60) (by rw [abs_of_nonneg hd0]; linarith)
  have e0 : 0 ≤ e := by
    have : rnd (0 : ℝ) ≤ rnd (H / 60) := FloatModel.rnd_mono _ _ hd0
    rw [FloatModel.rnd_zero, he] at this; simpa using this
  rw [abs_of_nonneg hd0] at ne
  have ne2 : |e - H / 60| ≤ 7 / 1000000 := by linarith
  have ne' := abs_le.mp ne2
  obtain ⟨t, ht, nt⟩ := near_rnd (r := n + e) (by rw [abs_of_nonneg (by linarith)]; linarith)
  have t0 : 0 ≤ t := by
    have : rnd (0 : ℝ) ≤ rnd (n + e) := FloatModel.rnd_mono _ _ (by linarith)
    rw [FloatModel.rnd_zero, ht] at this; simpa using this
  rw [abs_of_nonneg (a := n + e) (by linarith)] at nt
  have nt2 : |t - (n + e)| ≤ 13 / 1000000 := by linarith
  have nt' := abs_le.mp nt2
  have t12 : t < 12 := by linarith
  rw [fin_div _ _ (by norm_num), he, fin_add, ht, fmod_wrap (by norm_num) t0 (by linarith)]
  have w0 : 0 ≤ wrap 6 t := by unfold wrap; split <;> linarith
  have w6 : wrap 6 t ≤ 6 := by unfold wrap; split <;> linarith
  have hk : Near (fin 4 - fin (wrap 6 t)) (4 - wrap 6 t) (6 / 1000000) :=
    ((near_fin 4).sub (near_fin (wrap 6 t)) 4 (by rw [abs_le]; constructor <;> linarith) (by norm_num)).weaken (by norm_num)
  have hz : ∀ x, Near (fin x) x (6 / 1000000) := fun x => (near_fin x).weaken (by norm_num)
  have hW : Near (Fl.fmax (Fl.fmin (fin (wrap 6 t)) (Fl.fmin (fin 4 - fin (wrap 6 t)) (fin 1))) (fin 0)) (hsvW t) (6 / 1000000) :=
    ((hz _).fmin (hk.fmin (hz 1))).fmax (hz 0)
  have hW2 : |hsvW t - weight (n + H / 60)| ≤ 4 / 100000 := by
    rw [weight_eq t0 t12]
    refine (weight_lip _ _).trans ?_
    have : |t - (n + H / 60)| ≤ 2 / 100000 := by rw [abs_le]; constructor <;> linarith
    linarith
  have hW3 : Near (Fl.fmax (Fl.fmin (fin (wrap 6 t)) (Fl.fmin (fin 4 - fin (wrap 6 t)) (fin 1))) (fin 0)) (weight (n + H / 60)) (46 / 1000000) := by
    obtain ⟨W, e1, e2⟩ := hW
    refine ⟨W, e1, ?_⟩
    have := abs_sub_le W (hsvW t) (weight (n + H / 60))
    linarith
  have hw01 : 0 ≤ weight (n + H / 60) ∧ weight (n + H / 60) ≤ 1 := by
    rw [← weight_eq (by linarith) (by linarith)]; exact hsvW_range _
  have vS0 : 0 ≤ v * S := by positivity
  have vS1 : v * S ≤ 1 := mul_le_one₀ v1 S0 S1
  have hvS : Near (fin v * fin S) (v * S) (2 / 1000000) := by
    rw [fin_mul]
    refine (near_rnd (by rw [abs_of_nonneg vS0]; linarith)).weaken ?_
    rw [abs_of_nonneg vS0]; linarith
  have hm := (hvS.mul hW3 1 1 (by rw [abs_of_nonneg vS0]; exact vS1) (by rw [abs_of_nonneg hw01.1]; exact hw01.2) (by norm_num)).weaken
    (δ := 51 / 1000000) (by norm_num)
  have hm0 : 0 ≤ v * S * weight (n + H / 60) := mul_nonneg vS0 hw01.1
  have hm1 : v * S * weight (n + H / 60) ≤ 1 := mul_le_one₀ vS1 hw01.1 hw01.2
  exact ((near_fin v).sub hm 1 (by rw [abs_le]; constructor <;> linarith) (by norm_num)).weaken (by norm_num)

theorem weight_range {n H : ℝ} (n0 : 0 ≤ n) (n1 : n ≤ 5) (H0 : 0 ≤ H) (H1 : H ≤ 359) : 0 ≤ weight (n + H / 60) ∧ weight (n + H / 60) ≤ 1 := by
  rw [← weight_eq (by positivity) (by linarith)]; exact hsvW_range _

/-- Saturation times value is the chroma. -/
theorem chroma_near {mx mn : ℝ} (h0 : 0 ≤ mn) (h1 : mx ≤ 1) (hp : 0 < mx) (hle : mn ≤ mx) :
    ∃ S, Color.clamp ((fin mx - fin mn) / fin mx) 1 0 = fin S ∧ 0 ≤ S ∧ S ≤ 1 ∧ (1 / 10000 ≤ mx - mn → |mx * S - (mx - mn)| ≤ 5 / 1000000) ∧
      (mx - mn ≤ 1 / 10000 → mx * S ≤ 11 / 100000) := by
  obtain ⟨d, ed, nd⟩ := diff_near (x := mx) (y := mn) (by rw [abs_le]; constructor <;> linarith)
  have d0 := diff_nonneg hle ed
  have nd' := abs_le.mp nd
  have hr := Color.clamp_inRange ((fin mx - fin mn) / fin mx) (mx := 1) (mn := 0) (by norm_num)
  obtain ⟨S, hS, S0, S1⟩ := hr
  refine ⟨S, by simpa only [one_def, zero_def] using hS, S0, S1, ?_, ?_⟩
  · intro hδ
    have hb : 0 ≤ d / mx := by positivity
    have hb1 : d / mx ≤ 102 / 100 := by rw [div_le_iff₀ hp]; linarith
    obtain ⟨q, eq, nq⟩ := near_rnd (r := d / mx) (by rw [abs_of_nonneg hb]; linarith)
    rw [abs_of_nonneg hb] at nq
    have nq2 : |q - d / mx| ≤ 21 / 10000000 := by linarith
    rw [ed, fin_div _ _ hp.ne', eq, Color.clamp_fin, fin_inj] at hS
    have h2 : |S - (mx - mn) / mx| ≤ |q - (mx - mn) / mx| := by
      have i0 : 0 ≤ (mx - mn) / mx := div_nonneg (by linarith) hp.le
      have i1 : (mx - mn) / mx ≤ 1 := by rw [div_le_one hp]; linarith
      have e : (mx - mn) / mx = max (min ((mx - mn) / mx) 1) 0 := by rw [min_eq_left i1, max_eq_left i0]
      rw [e, ← hS]
      refine (abs_max_sub_max_le_max _ _ _ _).trans (max_le ((abs_min_sub_min_le_max _ _ _ _).trans (max_le ?_ (by simp))) (by simp))
      rw [← e]
    have h3 : |mx * S - (mx - mn)| = mx * |S - (mx - mn) / mx| := by
      rw [show mx * S - (mx - mn) = mx * (S - (mx - mn) / mx) by field_simp, abs_mul, abs_of_pos hp]
    have h4 : mx * |q - (mx - mn) / mx| ≤ mx * |q - d / mx| + |d - (mx - mn)| := by
      have h5 : |d - (mx - mn)| = mx * |d / mx - (mx - mn) / mx| := by
        rw [← abs_of_pos hp, ← abs_mul, abs_of_pos hp]; congr 1; field_simp
      rw [h5, ← mul_add]
      gcongr
      exact abs_sub_le _ _ _
    calc _ ≤ mx * |q - d / mx| + |d - (mx - mn)| := by rw [h3]; exact le_trans (by gcongr) h4
      _ ≤ 1 * (21 / 10000000) + 2 / 1000000 := by gcongr
      _ ≤ _ := by norm_num
  · intro hδ
    rcases le_or_gt mx (1 / 10000) with hm | hm
    · have : mx * S ≤ mx * 1 := by gcongr
      linarith
    · have hb : 0 ≤ d / mx := by positivity
      have hb1 : d / mx ≤ 2 := by rw [div_le_iff₀ hp]; linarith
      obtain ⟨q, eq, nq⟩ := near_rnd (r := d / mx) (by rw [abs_of_nonneg hb]; linarith)
      rw [abs_of_nonneg hb] at nq
      have nq2 : |q - d / mx| ≤ 3 / 1000000 := by linarith
      have nq' := abs_le.mp nq2
      rw [ed, fin_div _ _ hp.ne', eq, Color.clamp_fin, fin_inj] at hS
      have hSq : S ≤ d / mx + 3 / 1000000 := by
        rw [← hS]
        exact max_le ((min_le_left _ _).trans (by linarith)) (by linarith)
      have : mx * S ≤ mx * (d / mx + 3 / 1000000) := by gcongr
      have e : mx * (d / mx + 3 / 1000000) = d + mx * (3 / 1000000) := by field_simp
      rw [e] at this
      nlinarith

/-- One channel there and back. -/
theorem channel_near {mx mn S H x n w y : ℝ} (h1 : mx ≤ 1) (hp : 0 < mx) (S0 : 0 ≤ S) (S1 : S ≤ 1) (H0 : 0 ≤ H) (H1 : H ≤ 359)
    (n0 : 0 ≤ n) (n1 : n ≤ 5) (hS : |mx * S - (mx - mn)| ≤ 5 / 1000000) (hδ : 0 ≤ mx - mn) (hH : |H - x| * (mx - mn) ≤ 1 / 800) (hw : weight (n + x / 60) = 1 - w)
    (hy : y = mn + (mx - mn) * w) : Near (Leaf.hsvToRgb (fin H) (fin S) (fin mx) (fin n)) y (1 / 5000) := by
  obtain ⟨z, e1, e2⟩ := hsv_value H0 H1 S0 S1 hp.le h1 n0 n1
  refine ⟨z, e1, ?_⟩
  have hwr := weight_range n0 n1 H0 H1
  have k1 : |(mx * S - (mx - mn)) * weight (n + H / 60)| ≤ 5 / 1000000 * 1 := by
    rw [abs_mul, abs_of_nonneg hwr.1]; exact mul_le_mul hS hwr.2 hwr.1 (by norm_num)
  have k2 : |(mx - mn) * (weight (n + H / 60) - weight (n + x / 60))| ≤ 1 / 24000 := by
    rw [abs_mul, abs_of_nonneg hδ]
    have := weight_lip (n + H / 60) (n + x / 60)
    have e : |n + H / 60 - (n + x / 60)| = |H - x| / 60 := by
      rw [show n + H / 60 - (n + x / 60) = (H - x) / 60 by ring, abs_div, abs_of_pos (by norm_num : (0:ℝ) < 60)]
    rw [e] at this
    calc _ ≤ (mx - mn) * (2 * (|H - x| / 60)) := by gcongr
      _ = |H - x| * (mx - mn) / 30 := by ring
      _ ≤ 1 / 800 / 30 := by gcongr
      _ ≤ _ := by norm_num
  have e3 : mx - mx * S * weight (n + H / 60) - y = -((mx * S - (mx - mn)) * weight (n + H / 60)) - (mx - mn) * (weight (n + H / 60) - weight (n + x / 60)) := by
    rw [hw, hy]; ring
  have e4 : |z - y| ≤ |z - (mx - mx * S * weight (n + H / 60))| + |mx - mx * S * weight (n + H / 60) - y| := abs_sub_le _ _ _
  rw [e3] at e4
  have e5 := abs_sub (-((mx * S - (mx - mn)) * weight (n + H / 60))) ((mx - mn) * (weight (n + H / 60) - weight (n + x / 60)))
  rw [abs_neg] at e5
  linarith

/-- A nearly grey channel there and back. -/
theorem channel_grey {mx mn S H n y : ℝ} (h1 : mx ≤ 1) (hp : 0 < mx) (S0 : 0 ≤ S) (S1 : S ≤ 1) (H0 : 0 ≤ H) (H1 : H ≤ 359)
    (n0 : 0 ≤ n) (n1 : n ≤ 5) (hS : mx * S ≤ 11 / 100000) (hδ : mx - mn ≤ 1 / 10000) (hy0 : mn ≤ y) (hy1 : y ≤ mx) :
    Near (Leaf.hsvToRgb (fin H) (fin S) (fin mx) (fin n)) y (1 / 5000) := by
  obtain ⟨z, e1, e2⟩ := hsv_value H0 H1 S0 S1 hp.le h1 n0 n1
  refine ⟨z, e1, ?_⟩
  have hwr := weight_range n0 n1 H0 H1
  have vS0 : 0 ≤ mx * S := by positivity
  have k0 : 0 ≤ mx * S * weight (n + H / 60) := mul_nonneg vS0 hwr.1
  have k1 : mx * S * weight (n + H / 60) ≤ 11 / 100000 * 1 := mul_le_mul hS hwr.2 hwr.1 (by norm_num)
  rw [abs_le] at e2 ⊢
  constructor <;> linarith

/-- HSV there and back with rounding errors. -/
theorem hsv_near {c : Color} {r g b : ℝ} (h : IsRgb c r g b) : ∃ d r' g' b', Leaf.rgb_deep_to_hsv c = ok d ∧
    Leaf.hsv_to_rgb_deep d = ok { c with comps := [fin r', fin g', fin b'] } ∧ |r' - r| ≤ 1 / 5000 ∧ |g' - g| ≤ 1 / 5000 ∧
      (|b' - b| ≤ 1 / 5000 ∧ (HueGap r g b → b - g ≤ 1 / 10000) ∨ HueGap r g b ∧ |b' - gapBlue r g b| ≤ 1 / 5000) := by
  obtain ⟨-, -, r0, r1, g0, g1, b0, b1⟩ := id h
  suffices hs : ∃ d r' g' b', Leaf.rgb_deep_to_hsv c = ok d ∧ Leaf.hsv_to_rgb_deep d = ok (obj .rgbDeep r' g' b' c.malpha c.space) ∧
      |r' - r| ≤ 1 / 5000 ∧ |g' - g| ≤ 1 / 5000 ∧ (|b' - b| ≤ 1 / 5000 ∧ (HueGap r g b → b - g ≤ 1 / 10000) ∨ HueGap r g b ∧ |b' - gapBlue r g b| ≤ 1 / 5000) by
    obtain ⟨d, r', g', b', e1, e2, e3⟩ := hs
    rw [obj_rgb h] at e2
    exact ⟨d, r', g', b', e1, e2, e3⟩
  rw [rgb_eq h]
  generalize c.malpha = al
  generalize c.space = sp
  simp only [Leaf.rgb_deep_to_hsv, obj_0, obj_1, obj_2, obj_space, obj_malpha, obj_alpha _ _ _ _ _ _ (rfl : Color.scalesAlpha .rgbDeep = false), ok_bind, fmin_fin, fmax_fin, feq_fin, Color.construct_hsv]
  -- from HSV to RGB
  have back : ∀ H S v : ℝ, ∀ r' g' b' : ℝ, ∀ y1 y2 y3 : Fl, Leaf.hsvToRgb (fin H) (fin S) (fin v) (fin 5) = y1 → Leaf.hsvToRgb (fin H) (fin S) (fin v) (fin 3) = y2 →
      Leaf.hsvToRgb (fin H) (fin S) (fin v) (fin 1) = y3 → Color.clamp y1 1 0 = fin r' → Color.clamp y2 1 0 = fin g' → Color.clamp y3 1 0 = fin b' →
      Leaf.hsv_to_rgb_deep (obj .hsv H S v al sp) = ok (obj .rgbDeep r' g' b' al sp) := by
    rintro H S v r' g' b' _ _ _ rfl rfl rfl e1 e2 e3
    simp only [Leaf.hsv_to_rgb_deep, obj_0, obj_1, obj_2, obj_space, obj_malpha, obj_alpha _ _ _ _ _ _ (rfl : Color.scalesAlpha .hsv = false), ok_bind, Color.construct_rgbDeep,
      Color.mkRgbDeep]
    simp only [lit_def, one_def, zero_def] at e1 e2 e3 ⊢
    rw [e1, e2, e3]; simp only [obj, Color.maxOf, Color.minOf, one_def, zero_def]
  by_cases hne : max (max r g) b = min (min r g) b
  · rw [if_pos hne]
    obtain ⟨rfl, rfl⟩ := grey_of hne
    have hv : ∀ n : ℝ, 0 ≤ n → n ≤ 5 → Near (Color.clamp (Leaf.hsvToRgb (fin 0) (fin 0) (fin b) (fin n)) 1 0) b (8 / 100000) := by
      intro n n0 n1
      have := hsv_value (H := 0) (S := 0) (v := b) (n := n) le_rfl (by norm_num) le_rfl (by norm_num) b0 b1 n0 n1
      rw [mul_zero, zero_mul, sub_zero] at this
      exact this.clamp01 b0 b1
    obtain ⟨r', e1, n1⟩ := hv 5 (by norm_num) (by norm_num)
    obtain ⟨g', e2, n2⟩ := hv 3 (by norm_num) (by norm_num)
    obtain ⟨b', e3, n3⟩ := hv 1 (by norm_num) (by norm_num)
    rw [min_self, min_self, mkHue_grey _ _ _ ⟨rfl, rfl⟩ b0 b1]
    exact ⟨_, r', g', b', rfl, back 0 0 b r' g' b' _ _ _ rfl rfl rfl e1 e2 e3, by linarith, by linarith, .inl ⟨by linarith, fun hg => absurd hg.1 (lt_irrefl _)⟩⟩
  · rw [if_neg hne]
    generalize hmx : max (max r g) b = mx at *
    generalize hmn : min (min r g) b = mn at *
    have hr1 : mn ≤ r := by rw [← hmn]; exact (min_le_left _ _).trans (min_le_left _ _)
    have hg1 : mn ≤ g := by rw [← hmn]; exact (min_le_left _ _).trans (min_le_right _ _)
    have hb1 : mn ≤ b := by rw [← hmn]; exact min_le_right _ _
    have hr2 : r ≤ mx := by rw [← hmx]; exact (le_max_left _ _).trans (le_max_left _ _)
    have hg2 : g ≤ mx := by rw [← hmx]; exact (le_max_right _ _).trans (le_max_left _ _)
    have hb2 : b ≤ mx := by rw [← hmx]; exact le_max_right _ _
    have hmn0 : 0 ≤ mn := by rw [← hmn]; exact le_min (le_min r0 g0) b0
    have hmx1 : mx ≤ 1 := by rw [← hmx]; exact max_le (max_le r1 g1) b1
    have hlt : mn < mx := lt_of_le_of_ne (hr1.trans hr2) (Ne.symm hne)
    have hp : 0 < mx := by linarith
    obtain ⟨S, eS, S0, S1, hS, hS'⟩ := chroma_near hmn0 hmx1 hp hlt.le
    have hmk : ∀ H : ℝ, Color.clamp (Color.hueReduce (Leaf.hueFromRgb (fin r) (fin g) (fin b) (fin mx) (fin mx - fin mn))) 359 0 = fin H →
        Color.mkHue .hsv (Leaf.hueFromRgb (fin r) (fin g) (fin b) (fin mx) (fin mx - fin mn)) ((fin mx - fin mn) / fin mx) (fin mx) al sp = obj .hsv H S mx al sp := by
      intro H hH
      simp only [Color.mkHue, hH, eS, clamp01 hp.le hmx1, obj, Color.maxOf, Color.minOf]
    rcases le_or_gt (1 / 10000) (mx - mn) with hδ | hδ
    · obtain ⟨H, x, k, u, b2, eH, H0, H1, u0, u1, hst, hn, er, eg, eb, hb⟩ := hue_near hmx hmn hmn0 hmx1 hδ
      obtain ⟨w1, w2, w3⟩ := weights_at u0 u1 hst
      have hb20 : 0 ≤ b2 ∧ b2 ≤ 1 := by
        rcases hb with ⟨rfl, -⟩ | ⟨rfl, -⟩
        · exact ⟨b0, b1⟩
        · exact gapBlue_range r1 g0 b0 b1
      obtain ⟨r', e1, n1⟩ := (channel_near (n := 5) hmx1 hp S0 S1 H0 H1 (by norm_num) (by norm_num) (hS hδ) (by linarith) hn w1 er).clamp01 r0 r1
      obtain ⟨g', e2, n2⟩ := (channel_near (n := 3) hmx1 hp S0 S1 H0 H1 (by norm_num) (by norm_num) (hS hδ) (by linarith) hn w2 eg).clamp01 g0 g1
      obtain ⟨b', e3, n3⟩ := (channel_near (n := 1) hmx1 hp S0 S1 H0 H1 (by norm_num) (by norm_num) (hS hδ) (by linarith) hn w3 eb).clamp01 hb20.1 hb20.2
      refine ⟨_, r', g', b', rfl, ?_, n1, n2, ?_⟩
      · rw [hmk H eH]; exact back _ _ _ _ _ _ _ _ _ rfl rfl rfl e1 e2 e3
      · rcases hb with ⟨rfl, hgb⟩ | ⟨rfl, hgb⟩
        · exact .inl ⟨n3, fun hg => (hgb hg).trans (by norm_num)⟩
        · exact .inr ⟨hgb, n3⟩
    · obtain ⟨H, eH, H0, H1⟩ := Color.clamp_inRange (Color.hueReduce (Leaf.hueFromRgb (fin r) (fin g) (fin b) (fin mx) (fin mx - fin mn))) (mx := 359) (mn := 0) (by norm_num)
      have ch : ∀ n y : ℝ, 0 ≤ n → n ≤ 5 → mn ≤ y → y ≤ mx → Near (Color.clamp (Leaf.hsvToRgb (fin H) (fin S) (fin mx) (fin n)) 1 0) y (1 / 5000) :=
        fun n y n0 n1 y0 y1 => (channel_grey hmx1 hp S0 S1 H0 H1 n0 n1 (hS' hδ.le) hδ.le y0 y1).clamp01 (hmn0.trans y0) (y1.trans hmx1)
      obtain ⟨r', e1, n1⟩ := ch 5 r (by norm_num) (by norm_num) hr1 hr2
      obtain ⟨g', e2, n2⟩ := ch 3 g (by norm_num) (by norm_num) hg1 hg2
      obtain ⟨b', e3, n3⟩ := ch 1 b (by norm_num) (by norm_num) hb1 hb2
      refine ⟨_, r', g', b', rfl, ?_, n1, n2, .inl ⟨n3, fun _ => by linarith⟩⟩
      rw [hmk H (by simpa only [lit_def, zero_def] using eH)]; exact back _ _ _ _ _ _ _ _ _ rfl rfl rfl e1 e2 e3

/-! ## HSL -/

/-- One tooth of the weight of a channel in HSL. -/
noncomputable def ltooth (x : ℝ) : ℝ := max (min (x - 3) (min (9 - x) 1)) (-1)

/-- The weight, continuous on `-2 … 24`. -/
noncomputable def lweight (x : ℝ) : ℝ := ltooth x + ltooth (x - 12) + 1

omit [FloatModel] [SmallError] in
theorem ltooth_lip (x y : ℝ) : |ltooth x - ltooth y| ≤ |x - y| := by
  unfold ltooth
  refine (abs_max_sub_max_le_max _ _ _ _).trans (max_le ?_ (by simp))
  refine (abs_min_sub_min_le_max _ _ _ _).trans (max_le ?_ ?_)
  · rw [show x - 3 - (y - 3) = x - y by ring]
  · refine (abs_min_sub_min_le_max _ _ _ _).trans (max_le ?_ (by simp))
    rw [show 9 - x - (9 - y) = -(x - y) by ring, abs_neg]

omit [FloatModel] [SmallError] in
theorem lweight_lip (x y : ℝ) : |lweight x - lweight y| ≤ 2 * |x - y| := by
  unfold lweight
  have h1 := ltooth_lip x y
  have h2 := ltooth_lip (x - 12) (y - 12)
  rw [show x - 12 - (y - 12) = x - y by ring] at h2
  rw [show ltooth x + ltooth (x - 12) + 1 - (ltooth y + ltooth (y - 12) + 1) = (ltooth x - ltooth y) + (ltooth (x - 12) - ltooth (y - 12)) by ring]
  exact (abs_add_le _ _).trans (by linarith)

omit [FloatModel] [SmallError] in
theorem ltooth_low {x : ℝ} (h : x ≤ 2) : ltooth x = -1 := by
  unfold ltooth; rw [max_eq_right]; exact (min_le_left _ _).trans (by linarith)

omit [FloatModel] [SmallError] in
theorem ltooth_high {x : ℝ} (h : 10 ≤ x) : ltooth x = -1 := by
  unfold ltooth; rw [max_eq_right]; exact (min_le_right _ _).trans ((min_le_left _ _).trans (by linarith))

omit [FloatModel] [SmallError] in
theorem ltooth_range (x : ℝ) : -1 ≤ ltooth x ∧ ltooth x ≤ 1 := by
  unfold ltooth
  exact ⟨le_max_right _ _, max_le ((min_le_right _ _).trans (min_le_right _ _)) (by norm_num)⟩

omit [FloatModel] [SmallError] in
theorem lweight_eq {x : ℝ} (_h0 : 0 ≤ x) (_h1 : x < 24) : hslW x = lweight x := by
  unfold hslW lweight wrap
  split
  · rw [ltooth_low (x := x - 12) (by linarith)]; simp only [ltooth]; ring
  · rw [ltooth_high (x := x) (by linarith)]; simp only [ltooth]; ring

omit [FloatModel] [SmallError] in
theorem lweight_period {x : ℝ} (h0 : -2 ≤ x) (h1 : x ≤ 12) : lweight (x + 12) = lweight x := by
  unfold lweight
  rw [ltooth_high (x := x + 12) (by linarith), ltooth_low (x := x - 12) (by linarith), show x + 12 - 12 = x by ring]; ring

omit [FloatModel] [SmallError] in
theorem lweight_range {n H : ℝ} (n0 : 0 ≤ n) (n1 : n ≤ 8) (H0 : 0 ≤ H) (H1 : H ≤ 359) : |lweight (n + H / 30)| ≤ 1 := by
  rw [← lweight_eq (by positivity) (by linarith), abs_le]; exact ltooth_range _

omit [FloatModel] [SmallError] in
theorem lweights_at {k : Sector} {u x : ℝ} (u0 : 0 ≤ u) (u1 : u ≤ 1) (h : Stands k u x) :
    lweight (0 + x / 30) = 1 - 2 * k.red u ∧ lweight (8 + x / 30) = 1 - 2 * k.green u ∧ lweight (4 + x / 30) = 1 - 2 * k.blue u := by
  obtain ⟨w1, w2, w3⟩ := @hsl_weights Fl.exactFloat Fl.exactFloat_exact k u u0 u1
  obtain ⟨h0, h1⟩ := lim_hue k u0 u1
  rw [lweight_eq (by positivity) (by linarith)] at w1 w2 w3
  rcases h with rfl | ⟨rfl, rfl⟩
  · exact ⟨w1, w2, w3⟩
  · simp only [Sector.hue] at *
    refine ⟨?_, ?_, ?_⟩
    · rw [← w1, ← lweight_period (by linarith) (by linarith)]; congr 1; ring
    · rw [← w2, ← lweight_period (by linarith) (by linarith)]; congr 1; ring
    · rw [← w3, ← lweight_period (by linarith) (by linarith)]; congr 1; ring

omit [FloatModel] [SmallError] in
theorem lmin_range {l : ℝ} (l0 : 0 ≤ l) (l1 : l ≤ 1) : 0 ≤ min l (1 - l) ∧ min l (1 - l) ≤ 1 / 2 := by
  refine ⟨le_min l0 (by linarith), ?_⟩
  rcases le_total l (1 / 2) with h | h
  · exact (min_le_left _ _).trans h
  · exact (min_le_right _ _).trans (by linarith)

/-- One channel of HSL to RGB. -/
theorem hsl_value {H S l n : ℝ} (H0 : 0 ≤ H) (H1 : H ≤ 359) (S0 : 0 ≤ S) (S1 : S ≤ 1) (l0 : 0 ≤ l) (l1 : l ≤ 1) (n0 : 0 ≤ n) (n1 : n ≤ 8) :
    Near (Leaf.hslToRgb (fin H) (fin S) (fin l) (fin n)) (l - S * min l (1 - l) * lweight (n + H / 30)) (6 / 100000) := by
  have hm1 : (-1 : Fl) = fin (-1) := by simp
  simp only [Leaf.hslToRgb, lit_def, one_def, hm1]
  have hd0 : 0 ≤ H / 30 := by positivity
  have hd1 : H / 30 ≤ 11.97 := by linarith
  obtain ⟨e, he, ne⟩ := near_rnd (r := H / 30) (by rw [abs_of_nonneg hd0]; linarith)
  have e0 : 0 ≤ e := by
    have : rnd (0 : ℝ) ≤ rnd (H / 30) := FloatModel.rnd_mono _ _ hd0
    rw [FloatModel.rnd_zero, he] at this; simpa using this
  rw [abs_of_nonneg hd0] at ne
  have ne2 : |e - H / 30| ≤ 13 / 1000000 := by linarith
  have ne' := abs_le.mp ne2
  obtain ⟨t, ht, nt⟩ := near_rnd (r := n + e) (by rw [abs_of_nonneg (by linarith)]; linarith)
  have t0 : 0 ≤ t := by
    have : rnd (0 : ℝ) ≤ rnd (n + e) := FloatModel.rnd_mono _ _ (by linarith)
    rw [FloatModel.rnd_zero, ht] at this; simpa using this
  rw [abs_of_nonneg (a := n + e) (by linarith)] at nt
  have nt2 : |t - (n + e)| ≤ 21 / 1000000 := by linarith
  have nt' := abs_le.mp nt2
  have t24 : t < 24 := by linarith
  rw [fin_div _ _ (by norm_num), he, fin_add, ht, fmod_wrap (by norm_num) t0 (by linarith)]
  have w0 : 0 ≤ wrap 12 t := by unfold wrap; split <;> linarith
  have w6 : wrap 12 t ≤ 12 := by unfold wrap; split <;> linarith
  have hk : Near (fin 9 - fin (wrap 12 t)) (9 - wrap 12 t) (11 / 1000000) :=
    ((near_fin 9).sub (near_fin (wrap 12 t)) 9 (by rw [abs_le]; constructor <;> linarith) (by norm_num)).weaken (by norm_num)
  have hk2 : Near (fin (wrap 12 t) - fin 3) (wrap 12 t - 3) (11 / 1000000) :=
    ((near_fin (wrap 12 t)).sub (near_fin 3) 9 (by rw [abs_le]; constructor <;> linarith) (by norm_num)).weaken (by norm_num)
  have hz : ∀ x, Near (fin x) x (11 / 1000000) := fun x => (near_fin x).weaken (by norm_num)
  have hW : Near (Fl.fmax (Fl.fmin (fin (wrap 12 t) - fin 3) (Fl.fmin (fin 9 - fin (wrap 12 t)) (fin 1))) (fin (-1))) (hslW t) (11 / 1000000) :=
    (hk2.fmin (hk.fmin (hz 1))).fmax (hz (-1))
  have hW2 : |hslW t - lweight (n + H / 30)| ≤ 68 / 1000000 := by
    rw [lweight_eq t0 t24]
    refine (lweight_lip _ _).trans ?_
    have : |t - (n + H / 30)| ≤ 34 / 1000000 := by rw [abs_le]; constructor <;> linarith
    linarith
  have hW3 : Near (Fl.fmax (Fl.fmin (fin (wrap 12 t) - fin 3) (Fl.fmin (fin 9 - fin (wrap 12 t)) (fin 1))) (fin (-1))) (lweight (n + H / 30)) (79 / 1000000) := by
    obtain ⟨W, e1, e2⟩ := hW
    refine ⟨W, e1, ?_⟩
    have := abs_sub_le W (hslW t) (lweight (n + H / 30))
    linarith
  have hw01 := lweight_range n0 n1 H0 H1
  obtain ⟨μ0, μ1⟩ := lmin_range l0 l1
  have hmin : Near (Fl.fmin (fin l) (fin 1 - fin l)) (min l (1 - l)) (2 / 1000000) :=
    ((near_fin l).weaken (by norm_num)).fmin (((near_fin 1).sub (near_fin l) 1 (by rw [abs_le]; constructor <;> linarith) (by norm_num)).weaken (by norm_num))
  have ha := (((near_fin S).mul hmin 1 (1 / 2) (by rw [abs_of_nonneg S0]; exact S1) (by rw [abs_of_nonneg μ0]; exact μ1) (by norm_num))).weaken
    (δ := 4 / 1000000) (by norm_num)
  have a0 : 0 ≤ S * min l (1 - l) := mul_nonneg S0 μ0
  have a1 : S * min l (1 - l) ≤ 1 / 2 := by
    calc S * min l (1 - l) ≤ 1 * (1 / 2) := by gcongr
      _ = _ := by norm_num
  have hm := (ha.mul hW3 (1 / 2) 1 (by rw [abs_of_nonneg a0]; exact a1) hw01 (by norm_num)).weaken (δ := 46 / 1000000) (by norm_num)
  have hm0 : |S * min l (1 - l) * lweight (n + H / 30)| ≤ 1 / 2 := by
    rw [abs_mul, abs_of_nonneg a0]
    calc S * min l (1 - l) * |lweight (n + H / 30)| ≤ 1 / 2 * 1 := by gcongr
      _ = 1 / 2 := by norm_num
  rw [abs_le] at hm0
  exact ((near_fin l).sub hm 2 (by rw [abs_le]; constructor <;> linarith) (by norm_num)).weaken (by norm_num)

/-- Lightness, and saturation times distance to black or white. -/
theorem lchroma_near [IntExact] {mx mn : ℝ} (h0 : 0 ≤ mn) (h1 : mx ≤ 1) (hp : 1 / 1000 ≤ mx) (hle : mn ≤ mx) :
    ∃ S l, fin 0.5 * (fin mx + fin mn) = fin l ∧ Color.clamp (if feq (fin l) 0 ∨ feq (fin l) 1 then 0 else (fin mx - fin mn) / (1 - Fl.abs (2 * fin l - 1))) 1 0 = fin S ∧
      0 ≤ S ∧ S ≤ 1 ∧ 0 < l ∧ l ≤ 1 ∧ |l - (mx + mn) / 2| ≤ 5 / 1000000 ∧ (1 / 10000 ≤ mx - mn → |S * min l (1 - l) - (mx - mn) / 2| ≤ 1 / 100000) ∧
      (mx - mn ≤ 1 / 10000 → S * min l (1 - l) ≤ 2 / 10000) := by
  -- lightness
  obtain ⟨t, et, nt⟩ := near_rnd (r := mx + mn) (by rw [abs_of_nonneg (by linarith)]; linarith)
  rw [abs_of_nonneg (a := mx + mn) (by linarith)] at nt
  have nt2 : |t - (mx + mn)| ≤ 3 / 1000000 := by linarith
  have nt' := abs_le.mp nt2
  have t2 : t ≤ 2 := by
    have : rnd (mx + mn) ≤ rnd (2 : ℝ) := FloatModel.rnd_mono _ _ (by linarith)
    rw [et, show rnd (2 : ℝ) = fin 2 by simpa using IntExact.rnd_int 2 (by norm_num)] at this
    simpa using this
  obtain ⟨l, el, nl⟩ := near_rnd (r := 0.5 * t) (by rw [abs_of_nonneg (by linarith)]; linarith)
  rw [abs_of_nonneg (a := 0.5 * t) (by linarith)] at nl
  have nl2 : |l - 0.5 * t| ≤ 2 / 1000000 := by linarith
  have nl' := abs_le.mp nl2
  have l1 : l ≤ 1 := by
    have : rnd (0.5 * t) ≤ rnd (1 : ℝ) := FloatModel.rnd_mono _ _ (by linarith)
    rw [el, show rnd (1 : ℝ) = fin 1 by simpa using IntExact.rnd_int 1 (by norm_num)] at this
    simpa using this
  have nl3 : |l - (mx + mn) / 2| ≤ 5 / 1000000 := by rw [abs_le]; constructor <;> linarith
  have nl3' := abs_le.mp nl3
  have l0 : 0 < l := by linarith
  have hl : fin 0.5 * (fin mx + fin mn) = fin l := by rw [fin_add, et, fin_mul, el]
  -- chroma
  obtain ⟨d, ed, nd⟩ := diff_near (x := mx) (y := mn) (by rw [abs_le]; constructor <;> linarith)
  have d0 := diff_nonneg hle ed
  have nd' := abs_le.mp nd
  obtain ⟨μ0, μ1⟩ := lmin_range l0.le l1
  set μ := min l (1 - l) with hμ
  have habs : 1 - |2 * l - 1| = 2 * μ := by
    rw [hμ]
    rcases le_total l (1 / 2) with h | h
    · rw [abs_of_nonpos (by linarith), min_eq_left (by linarith)]; ring
    · rw [abs_of_nonneg (by linarith), min_eq_right (by linarith)]; ring
  have hden : Near (1 - Fl.abs (2 * fin l - 1)) (2 * μ) (8 / 1000000) := by
    have a := ((near_fin 2).mul (near_fin l) 2 1 (by norm_num) (by rw [abs_of_pos l0]; exact l1) (by norm_num)).weaken (δ := 3 / 1000000) (by norm_num)
    have b := (a.sub (near_fin 1) 1 (by rw [abs_le]; constructor <;> linarith) (by norm_num)).weaken (δ := 51 / 10000000) (by norm_num)
    have c := (((near_fin 1).sub b.abs 1 (by rw [habs, abs_of_nonneg (by linarith)]; linarith) (by norm_num))).weaken (δ := 8 / 1000000) (by norm_num)
    rw [habs] at c
    simpa only [lit_def, one_def] using c
  obtain ⟨m, em, nm⟩ := hden
  have nm' := abs_le.mp nm
  obtain ⟨S, hS, S0, S1⟩ := Color.clamp_inRange (if feq (fin l) 0 ∨ feq (fin l) 1 then 0 else (fin mx - fin mn) / (1 - Fl.abs (2 * fin l - 1))) (mx := 1) (mn := 0) (by norm_num)
  refine ⟨S, l, hl, by simpa only [one_def, zero_def] using hS, S0, S1, l0, l1, nl3, ?_, ?_⟩
  · intro hδ
    have μδ : (mx - mn) / 2 - 5 / 1000000 ≤ μ := by rw [hμ]; exact le_min (by linarith) (by linarith)
    have hl1 : l ≠ 1 := by intro h; linarith
    have mpos : 82 / 100 * (mx - mn) ≤ m := by linarith
    have m0 : 0 < m := by linarith
    rw [if_neg (by simp [hl1, l0.ne'])] at hS
    have hb : 0 ≤ d / m := by positivity
    have hb1 : d / m ≤ 125 / 100 := by rw [div_le_iff₀ m0]; linarith
    obtain ⟨q, eq, nq⟩ := near_rnd (r := d / m) (by rw [abs_of_nonneg hb]; linarith)
    rw [abs_of_nonneg hb] at nq
    have nq2 : |q - d / m| ≤ 23 / 10000000 := by linarith
    have nq' := abs_le.mp nq2
    rw [ed, em, fin_div _ _ m0.ne', eq, Color.clamp_fin, fin_inj] at hS
    -- the unlimited saturation
    have hq : |q * μ - (mx - mn) / 2| ≤ 1 / 100000 := by
      have e1 : d / m * μ - (mx - mn) / 2 = ((d - (mx - mn)) * (2 * μ) + (mx - mn) * (2 * μ - m)) / (2 * m) := by field_simp; ring
      have e2 : |d / m * μ - (mx - mn) / 2| ≤ 7 / 1000000 := by
        rw [e1, abs_div, abs_of_pos (by linarith : 0 < 2 * m), div_le_iff₀ (by linarith)]
        have k1 : |(d - (mx - mn)) * (2 * μ)| ≤ 2 / 1000000 * (m + 8 / 1000000) := by
          rw [abs_mul, abs_of_nonneg (by linarith : 0 ≤ 2 * μ)]
          exact mul_le_mul nd (by linarith) (by linarith) (by norm_num)
        have k2 : |(mx - mn) * (2 * μ - m)| ≤ (mx - mn) * (8 / 1000000) := by
          rw [abs_mul, abs_of_nonneg (by linarith : 0 ≤ mx - mn)]
          gcongr
          rw [abs_sub_comm]; exact nm
        have := abs_add_le ((d - (mx - mn)) * (2 * μ)) ((mx - mn) * (2 * μ - m))
        linarith
      have e3 : |(q - d / m) * μ| ≤ 23 / 10000000 * (1 / 2) := by
        rw [abs_mul, abs_of_nonneg μ0]; gcongr
      have e4 := abs_add_le ((q - d / m) * μ) (d / m * μ - (mx - mn) / 2)
      rw [show (q - d / m) * μ + (d / m * μ - (mx - mn) / 2) = q * μ - (mx - mn) / 2 by ring] at e4
      linarith
    have q0 : 0 ≤ q := by
      have : rnd (0 : ℝ) ≤ rnd (d / m) := FloatModel.rnd_mono _ _ hb
      rw [FloatModel.rnd_zero, eq] at this; simpa using this
    rcases le_total q 1 with h | h
    · rw [min_eq_left h, max_eq_left q0] at hS
      rw [← hS]; exact hq
    · rw [min_eq_right h, max_eq_left (by norm_num)] at hS
      rw [← hS, one_mul]
      have : 1 * μ ≤ q * μ := by gcongr
      rw [abs_le] at hq ⊢
      constructor <;> linarith
  · intro hδ
    rcases le_or_gt μ (2 / 10000) with hm | hm
    · have : S * μ ≤ 1 * μ := by gcongr
      linarith
    · split at hS
      · rw [zero_def, Color.clamp_fin, fin_inj] at hS
        norm_num at hS
        rw [← hS]; norm_num
      · have m0 : 0 < m := by linarith
        have hb : 0 ≤ d / m := by positivity
        have hb1 : d / m ≤ 1 := by rw [div_le_iff₀ m0]; linarith
        obtain ⟨q, eq, nq⟩ := near_rnd (r := d / m) (by rw [abs_of_nonneg hb]; linarith)
        rw [abs_of_nonneg hb] at nq
        have nq2 : |q - d / m| ≤ 2 / 1000000 := by linarith
        have nq' := abs_le.mp nq2
        rw [ed, em, fin_div _ _ m0.ne', eq, Color.clamp_fin, fin_inj] at hS
        have hSq : S ≤ d / m + 2 / 1000000 := by
          rw [← hS]
          exact max_le ((min_le_left _ _).trans (by linarith)) (by linarith)
        have k : d / m * μ ≤ d := by
          rw [div_mul_eq_mul_div, div_le_iff₀ m0]
          have : μ ≤ m := by linarith
          gcongr
        have : S * μ ≤ (d / m + 2 / 1000000) * μ := by gcongr
        linarith

/-- One channel through HSL and back. -/
theorem lchannel_near {mx mn S l H x n w y : ℝ} (l0 : 0 < l) (l1 : l ≤ 1) (nl : |l - (mx + mn) / 2| ≤ 5 / 1000000) (S0 : 0 ≤ S) (S1 : S ≤ 1) (H0 : 0 ≤ H) (H1 : H ≤ 359)
    (n0 : 0 ≤ n) (n1 : n ≤ 8) (hS : |S * min l (1 - l) - (mx - mn) / 2| ≤ 1 / 100000) (hδ : 0 ≤ mx - mn) (hH : |H - x| * (mx - mn) ≤ 1 / 800)
    (hw : lweight (n + x / 30) = 1 - 2 * w) (hy : y = mn + (mx - mn) * w) : Near (Leaf.hslToRgb (fin H) (fin S) (fin l) (fin n)) y (1 / 2000) := by
  obtain ⟨z, e1, e2⟩ := hsl_value H0 H1 S0 S1 l0.le l1 n0 n1
  refine ⟨z, e1, ?_⟩
  have hwr := lweight_range n0 n1 H0 H1
  have k1 : |(S * min l (1 - l) - (mx - mn) / 2) * lweight (n + H / 30)| ≤ 1 / 100000 * 1 := by
    rw [abs_mul]; gcongr
  have k2 : |(mx - mn) / 2 * (lweight (n + H / 30) - lweight (n + x / 30))| ≤ 1 / 24000 := by
    rw [abs_mul, abs_of_nonneg (by linarith)]
    have := lweight_lip (n + H / 30) (n + x / 30)
    have e : |n + H / 30 - (n + x / 30)| = |H - x| / 30 := by
      rw [show n + H / 30 - (n + x / 30) = (H - x) / 30 by ring, abs_div, abs_of_pos (by norm_num : (0:ℝ) < 30)]
    rw [e] at this
    calc _ ≤ (mx - mn) / 2 * (2 * (|H - x| / 30)) := by gcongr
      _ = |H - x| * (mx - mn) / 30 := by ring
      _ ≤ 1 / 800 / 30 := by gcongr
      _ ≤ _ := by norm_num
  have e3 : l - S * min l (1 - l) * lweight (n + H / 30) - y = (l - (mx + mn) / 2) - ((S * min l (1 - l) - (mx - mn) / 2) * lweight (n + H / 30) +
      (mx - mn) / 2 * (lweight (n + H / 30) - lweight (n + x / 30))) := by
    rw [hw, hy]; ring
  have e4 : |z - y| ≤ |z - (l - S * min l (1 - l) * lweight (n + H / 30))| + |l - S * min l (1 - l) * lweight (n + H / 30) - y| := abs_sub_le _ _ _
  rw [e3] at e4
  have e5 := abs_sub (l - (mx + mn) / 2) ((S * min l (1 - l) - (mx - mn) / 2) * lweight (n + H / 30) + (mx - mn) / 2 * (lweight (n + H / 30) - lweight (n + x / 30)))
  have e6 := abs_add_le ((S * min l (1 - l) - (mx - mn) / 2) * lweight (n + H / 30)) ((mx - mn) / 2 * (lweight (n + H / 30) - lweight (n + x / 30)))
  linarith

/-- A nearly grey channel through HSL and back. -/
theorem lchannel_grey {mx mn S l H n y : ℝ} (l0 : 0 < l) (l1 : l ≤ 1) (nl : |l - (mx + mn) / 2| ≤ 5 / 1000000) (S0 : 0 ≤ S) (S1 : S ≤ 1) (H0 : 0 ≤ H) (H1 : H ≤ 359)
    (n0 : 0 ≤ n) (n1 : n ≤ 8) (hS : S * min l (1 - l) ≤ 2 / 10000) (hδ : mx - mn ≤ 1 / 10000) (hy0 : mn ≤ y) (hy1 : y ≤ mx) :
    Near (Leaf.hslToRgb (fin H) (fin S) (fin l) (fin n)) y (1 / 2000) := by
  obtain ⟨z, e1, e2⟩ := hsl_value H0 H1 S0 S1 l0.le l1 n0 n1
  refine ⟨z, e1, ?_⟩
  have hwr := lweight_range n0 n1 H0 H1
  have a0 : 0 ≤ S * min l (1 - l) := mul_nonneg S0 (lmin_range l0.le l1).1
  have k1 : |S * min l (1 - l) * lweight (n + H / 30)| ≤ 2 / 10000 * 1 := by
    rw [abs_mul, abs_of_nonneg a0]; gcongr
  rw [abs_le] at e2 nl k1 ⊢
  constructor <;> linarith

/-- HSL there and back with rounding errors, unless the colour is nearly black. -/
theorem hsl_near [IntExact] {c : Color} {r g b : ℝ} (h : IsRgb c r g b) (hbl : 1 / 1000 ≤ max (max r g) b) : ∃ d r' g' b', Leaf.rgb_deep_to_hsl c = ok d ∧
    Leaf.hsl_to_rgb_deep d = ok { c with comps := [fin r', fin g', fin b'] } ∧ |r' - r| ≤ 1 / 2000 ∧ |g' - g| ≤ 1 / 2000 ∧
      (|b' - b| ≤ 1 / 2000 ∧ (HueGap r g b → b - g ≤ 1 / 10000) ∨ HueGap r g b ∧ |b' - gapBlue r g b| ≤ 1 / 2000) := by
  obtain ⟨-, -, r0, r1, g0, g1, b0, b1⟩ := id h
  suffices hs : ∃ d r' g' b', Leaf.rgb_deep_to_hsl c = ok d ∧ Leaf.hsl_to_rgb_deep d = ok (obj .rgbDeep r' g' b' c.malpha c.space) ∧
      |r' - r| ≤ 1 / 2000 ∧ |g' - g| ≤ 1 / 2000 ∧ (|b' - b| ≤ 1 / 2000 ∧ (HueGap r g b → b - g ≤ 1 / 10000) ∨ HueGap r g b ∧ |b' - gapBlue r g b| ≤ 1 / 2000) by
    obtain ⟨d, r', g', b', e1, e2, e3⟩ := hs
    rw [obj_rgb h] at e2
    exact ⟨d, r', g', b', e1, e2, e3⟩
  rw [rgb_eq h]
  generalize c.malpha = al
  generalize c.space = sp
  simp only [Leaf.rgb_deep_to_hsl, obj_0, obj_1, obj_2, obj_space, obj_malpha, obj_alpha _ _ _ _ _ _ (rfl : Color.scalesAlpha .rgbDeep = false), ok_bind, fmin_fin, fmax_fin, feq_fin, Color.construct_hsl]
  -- from HSL to RGB
  have back : ∀ H S l : ℝ, l ≠ 0 → ∀ r' g' b' : ℝ, Color.clamp (Leaf.hslToRgb (fin H) (fin S) (fin l) (fin 0)) 1 0 = fin r' →
      Color.clamp (Leaf.hslToRgb (fin H) (fin S) (fin l) (fin 8)) 1 0 = fin g' → Color.clamp (Leaf.hslToRgb (fin H) (fin S) (fin l) (fin 4)) 1 0 = fin b' →
      Leaf.hsl_to_rgb_deep (obj .hsl H S l al sp) = ok (obj .rgbDeep r' g' b' al sp) := by
    intro H S l hl r' g' b' e1 e2 e3
    simp only [Leaf.hsl_to_rgb_deep, obj_0, obj_1, obj_2, obj_space, obj_malpha, obj_alpha _ _ _ _ _ _ (rfl : Color.scalesAlpha .hsl = false), ok_bind, Color.construct_rgbDeep,
      Color.mkRgbDeep]
    simp only [lit_def, one_def, zero_def, feq_fin, hl, if_false] at e1 e2 e3 ⊢
    rw [e1, e2, e3]; simp only [obj, Color.maxOf, Color.minOf, one_def, zero_def]
  by_cases hne : max (max r g) b = min (min r g) b
  · rw [if_pos hne]
    obtain ⟨rfl, rfl⟩ := grey_of hne
    rw [max_self, max_self] at hbl
    have hv : ∀ n : ℝ, 0 ≤ n → n ≤ 8 → Near (Color.clamp (Leaf.hslToRgb (fin 0) (fin 0) (fin b) (fin n)) 1 0) b (6 / 100000) := by
      intro n n0 n1
      have := hsl_value (H := 0) (S := 0) (l := b) (n := n) le_rfl (by norm_num) le_rfl (by norm_num) b0 b1 n0 n1
      rw [zero_mul, zero_mul, sub_zero] at this
      exact this.clamp01 b0 b1
    obtain ⟨r', e1, n1⟩ := hv 0 (by norm_num) (by norm_num)
    obtain ⟨g', e2, n2⟩ := hv 8 (by norm_num) (by norm_num)
    obtain ⟨b', e3, n3⟩ := hv 4 (by norm_num) (by norm_num)
    rw [min_self, min_self, mkHue_grey _ _ _ ⟨rfl, rfl⟩ b0 b1]
    exact ⟨_, r', g', b', rfl, back 0 0 b (by linarith) r' g' b' e1 e2 e3, by linarith, by linarith, .inl ⟨by linarith, fun hg => absurd hg.1 (lt_irrefl _)⟩⟩
  · rw [if_neg hne]
    generalize hmx : max (max r g) b = mx at *
    generalize hmn : min (min r g) b = mn at *
    have hr1 : mn ≤ r := by rw [← hmn]; exact (min_le_left _ _).trans (min_le_left _ _)
    have hg1 : mn ≤ g := by rw [← hmn]; exact (min_le_left _ _).trans (min_le_right _ _)
    have hb1 : mn ≤ b := by rw [← hmn]; exact min_le_right _ _
    have hr2 : r ≤ mx := by rw [← hmx]; exact (le_max_left _ _).trans (le_max_left _ _)
    have hg2 : g ≤ mx := by rw [← hmx]; exact (le_max_right _ _).trans (le_max_left _ _)
    have hb2 : b ≤ mx := by rw [← hmx]; exact le_max_right _ _
    have hmn0 : 0 ≤ mn := by rw [← hmn]; exact le_min (le_min r0 g0) b0
    have hmx1 : mx ≤ 1 := by rw [← hmx]; exact max_le (max_le r1 g1) b1
    have hlt : mn < mx := lt_of_le_of_ne (hr1.trans hr2) (Ne.symm hne)
    obtain ⟨S, l, el, eS, S0, S1, l0, l1, nl, hS, hS'⟩ := lchroma_near hmn0 hmx1 hbl hlt.le
    rw [el]
    have hmk : ∀ H : ℝ, Color.clamp (Color.hueReduce (Leaf.hueFromRgb (fin r) (fin g) (fin b) (fin mx) (fin mx - fin mn))) 359 0 = fin H →
        Color.mkHue .hsl (Leaf.hueFromRgb (fin r) (fin g) (fin b) (fin mx) (fin mx - fin mn))
          (if feq (fin l) 0 ∨ feq (fin l) 1 then 0 else (fin mx - fin mn) / (1 - Fl.abs (2 * fin l - 1))) (fin l) al sp = obj .hsl H S l al sp := by
      intro H hH
      simp only [Color.mkHue, hH, eS, clamp01 l0.le l1, obj, Color.maxOf, Color.minOf]
    rcases le_or_gt (1 / 10000) (mx - mn) with hδ | hδ
    · obtain ⟨H, x, k, u, b2, eH, H0, H1, u0, u1, hst, hn, er, eg, eb, hb⟩ := hue_near hmx hmn hmn0 hmx1 hδ
      obtain ⟨w1, w2, w3⟩ := lweights_at u0 u1 hst
      have hb20 : 0 ≤ b2 ∧ b2 ≤ 1 := by
        rcases hb with ⟨rfl, -⟩ | ⟨rfl, -⟩
        · exact ⟨b0, b1⟩
        · exact gapBlue_range r1 g0 b0 b1
      obtain ⟨r', e1, n1⟩ := (lchannel_near (n := 0) l0 l1 nl S0 S1 H0 H1 (by norm_num) (by norm_num) (hS hδ) (by linarith) hn w1 er).clamp01 r0 r1
      obtain ⟨g', e2, n2⟩ := (lchannel_near (n := 8) l0 l1 nl S0 S1 H0 H1 (by norm_num) (by norm_num) (hS hδ) (by linarith) hn w2 eg).clamp01 g0 g1
      obtain ⟨b', e3, n3⟩ := (lchannel_near (n := 4) l0 l1 nl S0 S1 H0 H1 (by norm_num) (by norm_num) (hS hδ) (by linarith) hn w3 eb).clamp01 hb20.1 hb20.2
      refine ⟨_, r', g', b', rfl, ?_, n1, n2, ?_⟩
      · rw [hmk H eH]; exact back _ _ _ l0.ne' _ _ _ e1 e2 e3
      · rcases hb with ⟨rfl, hgb⟩ | ⟨rfl, hgb⟩
        · exact .inl ⟨n3, fun hg => (hgb hg).trans (by norm_num)⟩
        · exact .inr ⟨hgb, n3⟩
    · obtain ⟨H, eH, H0, H1⟩ := Color.clamp_inRange (Color.hueReduce (Leaf.hueFromRgb (fin r) (fin g) (fin b) (fin mx) (fin mx - fin mn))) (mx := 359) (mn := 0) (by norm_num)
      have ch : ∀ n y : ℝ, 0 ≤ n → n ≤ 8 → mn ≤ y → y ≤ mx → Near (Color.clamp (Leaf.hslToRgb (fin H) (fin S) (fin l) (fin n)) 1 0) y (1 / 2000) :=
        fun n y n0 n1 y0 y1 => (lchannel_grey l0 l1 nl S0 S1 H0 H1 n0 n1 (hS' hδ.le) hδ.le y0 y1).clamp01 (hmn0.trans y0) (y1.trans hmx1)
      obtain ⟨r', e1, n1⟩ := ch 0 r (by norm_num) (by norm_num) hr1 hr2
      obtain ⟨g', e2, n2⟩ := ch 8 g (by norm_num) (by norm_num) hg1 hg2
      obtain ⟨b', e3, n3⟩ := ch 4 b (by norm_num) (by norm_num) hb1 hb2
      refine ⟨_, r', g', b', rfl, ?_, n1, n2, .inl ⟨n3, fun _ => by linarith⟩⟩
      rw [hmk H (by simpa only [lit_def, zero_def] using eH)]; exact back _ _ _ l0.ne' _ _ _ e1 e2 e3

end Hue
