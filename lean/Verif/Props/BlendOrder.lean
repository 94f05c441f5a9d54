import Verif.Props.Blends3

/-!
# Order, monotonicity and duality of the blend modes (C139–C141)
-/

open Outcome Fl Prog ObjectSpec ConvSpec Hue BlendSpec

namespace BlendSpec

/-- No channel of `r` is brighter than that of `r'`; both are RGB_DEEP colours of the same opacity and colour space. -/
def Darker (r r' : Color) : Prop := ∃ x0 x1 x2 y0 y1 y2 a : ℝ, r = obj .rgbDeep x0 x1 x2 (fin a) r.space ∧ r' = obj .rgbDeep y0 y1 y2 (fin a) r.space ∧
  x0 ≤ y0 ∧ x1 ≤ y1 ∧ x2 ≤ y2

/-- Pairs of modes of which the second is expected to be the brighter one, for whatever colours. -/
inductive Mode.Below : Mode → Mode → Prop
  | linear_burn_multiply : Below .linear_burn .multiply
  | plus_darker_multiply : Below .plus_darker .multiply
  | multiply_darken : Below .multiply .darken
  | darken_normal : Below .darken .normal
  | normal_lighten : Below .normal .lighten
  | lighten_screen : Below .lighten .screen
  | screen_linear_dodge : Below .screen .linear_dodge
  | screen_plus_lighter : Below .screen .plus_lighter
  | multiply_overlay : Below .multiply .overlay
  | overlay_screen : Below .overlay .screen
  | multiply_hard_light : Below .multiply .hard_light
  | hard_light_screen : Below .hard_light .screen
  | multiply_pin_light : Below .multiply .pin_light
  | pin_light_screen : Below .pin_light .screen
  | linear_burn_linear_light : Below .linear_burn .linear_light
  | linear_light_linear_dodge : Below .linear_light .linear_dodge
  | subtract_difference : Below .subtract .difference
  | difference_exclusion : Below .difference .exclusion
  | difference_lighten : Below .difference .lighten
  | exclusion_screen : Below .exclusion .screen
  | linear_burn_hard_mix : Below .linear_burn .hard_mix
  | trans {l m n} : Below l m → Below m n → Below l n

/-- Modes whose result must not get darker when the destination gets brighter. -/
inductive Mode.GrowsWithDestination : Mode → Prop
  | normal : GrowsWithDestination .normal
  | multiply : GrowsWithDestination .multiply
  | screen : GrowsWithDestination .screen
  | overlay : GrowsWithDestination .overlay
  | darken : GrowsWithDestination .darken
  | lighten : GrowsWithDestination .lighten
  | color_dodge : GrowsWithDestination .color_dodge
  | linear_dodge : GrowsWithDestination .linear_dodge
  | linear_burn : GrowsWithDestination .linear_burn
  | hard_light : GrowsWithDestination .hard_light
  | soft_light : GrowsWithDestination .soft_light
  | vivid_light : GrowsWithDestination .vivid_light
  | linear_light : GrowsWithDestination .linear_light
  | pin_light : GrowsWithDestination .pin_light
  | hard_mix : GrowsWithDestination .hard_mix
  | divide : GrowsWithDestination .divide
  | plus_lighter : GrowsWithDestination .plus_lighter
  | plus_darker : GrowsWithDestination .plus_darker

/-- Modes whose result must not get darker when the source gets brighter. -/
inductive Mode.GrowsWithSource : Mode → Prop
  | normal : GrowsWithSource .normal
  | multiply : GrowsWithSource .multiply
  | screen : GrowsWithSource .screen
  | overlay : GrowsWithSource .overlay
  | darken : GrowsWithSource .darken
  | lighten : GrowsWithSource .lighten
  | color_dodge : GrowsWithSource .color_dodge
  | linear_dodge : GrowsWithSource .linear_dodge
  | linear_burn : GrowsWithSource .linear_burn
  | hard_light : GrowsWithSource .hard_light
  | linear_light : GrowsWithSource .linear_light
  | pin_light : GrowsWithSource .pin_light
  | hard_mix : GrowsWithSource .hard_mix
  | subtract : GrowsWithSource .subtract
  | plus_lighter : GrowsWithSource .plus_lighter
  | plus_darker : GrowsWithSource .plus_darker

/-- Modes that are the negative of one another: blending the negatives with the one gives the negative of blending with the other. -/
inductive Mode.Dual : Mode → Mode → Prop
  | normal : Dual .normal .normal
  | multiply : Dual .multiply .screen
  | darken : Dual .darken .lighten
  | overlay : Dual .overlay .overlay
  | hard_light : Dual .hard_light .hard_light
  | pin_light : Dual .pin_light .pin_light
  | symm {m n} : Dual m n → Dual n m

/-- The same for the modes that exceed the range before the result is limited. -/
inductive Mode.DualLimited : Mode → Mode → Prop
  | linear_dodge : DualLimited .linear_dodge .linear_burn
  | plus_lighter : DualLimited .plus_lighter .plus_darker
  | linear_light : DualLimited .linear_light .linear_light
  | symm {m n} : DualLimited m n → DualLimited n m

/-- The modes that measure how far two colours are apart. -/
inductive Mode.Contrast : Mode → Prop
  | difference : Contrast .difference
  | exclusion : Contrast .exclusion

/-- The negative of an RGB colour, of the same opacity. -/
structure Negative (c n : Color) : Prop where
  values : ∃ r g b a : ℝ, c = obj .rgbDeep r g b (fin a) c.space ∧ n = obj .rgbDeep (1 - r) (1 - g) (1 - b) (fin a) c.space

end BlendSpec

namespace Blend

theorem unit_mono {x y : ℝ} (h : x ≤ y) : unit x ≤ unit y := max_le_max (min_le_min h le_rfl) le_rfl

theorem quot_mono {α x y : ℝ} (hα : 0 ≤ α) (h : x ≤ y) : quot α x ≤ quot α y := by
  unfold quot
  split_ifs
  · exact h
  · exact div_le_div_of_nonneg_right h hα

theorem weight_nonneg (b : Bool) : 0 ≤ weight b := by cases b <;> simp [weight]

theorem alphaOf_nonneg (us ud : Bool) {sa da : ℝ} (s0 : 0 ≤ sa) (s1 : sa ≤ 1) (d0 : 0 ≤ da) (d1 : da ≤ 1) : 0 ≤ alphaOf us ud true sa da := by
  have h1 := mul_nonneg (mul_nonneg s0 (sub_nonneg.mpr d1)) (weight_nonneg us)
  have h2 := mul_nonneg (mul_nonneg d0 (sub_nonneg.mpr s1)) (weight_nonneg ud)
  have h3 := mul_nonneg (mul_nonneg s0 d0) (weight_nonneg true)
  unfold alphaOf
  linarith

theorem comb_mono (us ud : Bool) {sa da s s' d d' v v' : ℝ} (s0 : 0 ≤ sa) (s1 : sa ≤ 1) (d0 : 0 ≤ da) (d1 : da ≤ 1) (hs : s ≤ s') (hd : d ≤ d') (hv : v ≤ v') :
    comb us ud sa da s d v ≤ comb us ud sa da s' d' v' := by
  have h1 := mul_le_mul_of_nonneg_left (mul_le_mul_of_nonneg_left hs (weight_nonneg us)) (mul_nonneg s0 (sub_nonneg.mpr d1))
  have h2 := mul_le_mul_of_nonneg_left (mul_le_mul_of_nonneg_left hd (weight_nonneg ud)) (mul_nonneg d0 (sub_nonneg.mpr s1))
  have h3 := mul_le_mul_of_nonneg_left hv (mul_nonneg s0 d0)
  unfold comb
  linarith

theorem formula_below {m n : Mode} (h : m.Below n) : ∀ (δ : ℝ) (i : Nat) {s d : ℝ}, 0 ≤ s → s ≤ 1 → 0 ≤ d → d ≤ 1 → m.formula δ i s d ≤ n.formula δ i s d := by
  induction h with
  | trans _ _ h1 h2 => exact fun δ i s d s0 s1 d0 d1 => (h1 δ i s0 s1 d0 d1).trans (h2 δ i s0 s1 d0 d1)
  | difference_exclusion =>
    intro δ i s d s0 s1 d0 d1
    have p3 := mul_nonneg s0 (sub_nonneg.mpr d1)
    have p4 := mul_nonneg d0 (sub_nonneg.mpr s1)
    simp only [Mode.formula]
    exact abs_le.mpr ⟨by nlinarith, by nlinarith⟩
  | difference_lighten =>
    intro δ i s d s0 s1 d0 d1
    exact abs_le.mpr ⟨by have := le_max_right s d; simp only [Mode.formula]; linarith, by have := le_max_left s d; simp only [Mode.formula]; linarith⟩
  | subtract_difference => intro δ i s d s0 s1 d0 d1; exact le_abs_self _
  | darken_normal => intro δ i s d s0 s1 d0 d1; exact min_le_left _ _
  | normal_lighten => intro δ i s d s0 s1 d0 d1; exact le_max_left _ _
  | multiply_darken => intro δ i s d s0 s1 d0 d1; exact le_min (show s * d ≤ s by nlinarith) (show s * d ≤ d by nlinarith)
  | lighten_screen => intro δ i s d s0 s1 d0 d1; exact max_le (show s ≤ s + d - s * d by nlinarith) (show d ≤ s + d - s * d by nlinarith)
  | _ =>
    intro δ i s d s0 s1 d0 d1
    have p1 := mul_nonneg s0 d0
    have p2 := mul_nonneg (sub_nonneg.mpr s1) (sub_nonneg.mpr d1)
    have p3 := mul_nonneg s0 (sub_nonneg.mpr d1)
    have p4 := mul_nonneg d0 (sub_nonneg.mpr s1)
    simp only [Mode.formula]
    try split_ifs
    all_goals first
      | nlinarith
      | exact le_min (by nlinarith) (by nlinarith)
      | exact (min_le_left _ _).trans (by nlinarith)
      | exact le_max_of_le_left (by nlinarith)
      | exact max_le (by nlinarith) (by nlinarith)

theorem formula_grows_d {m : Mode} (h : m.GrowsWithDestination) (δ : ℝ) (i : Nat) {s d d' : ℝ} (s0 : 0 ≤ s) (s1 : s ≤ 1) (d0 : 0 ≤ d) (hd : d ≤ d') (d1 : d' ≤ 1) :
    m.formula δ i s d ≤ m.formula δ i s d' := by
  have q1 := mul_nonneg s0 (sub_nonneg.mpr hd)
  have q2 := mul_nonneg (sub_nonneg.mpr s1) (sub_nonneg.mpr hd)
  have hz : d' = 0 → d = 0 := fun h => le_antisymm (h ▸ hd) d0
  cases h with
  | darken => exact min_le_min le_rfl hd
  | lighten => exact max_le_max le_rfl hd
  | color_dodge =>
    simp only [Mode.formula]
    have hs := sub_nonneg.mpr s1
    split_ifs with h1 h2 h3 h4 h5
    · exact le_rfl
    · exact zero_le_one
    · exact le_min (div_nonneg (d0.trans hd) hs) zero_le_one
    · exact absurd (hz ‹d' = 0›) ‹¬ d = 0›
    · exact le_rfl
    · exact absurd (hz ‹d' = 0›) ‹¬ d = 0›
    · exact min_le_min (div_le_div_of_nonneg_right hd hs) le_rfl
  | divide =>
    simp only [Mode.formula]
    split_ifs with h1 h2 h3 h4 h5
    · exact le_rfl
    · exact zero_le_one
    · exact div_nonneg (d0.trans hd) s0
    · exact absurd (hz ‹d' = 0›) ‹¬ d = 0›
    · exact le_rfl
    · exact absurd (hz ‹d' = 0›) ‹¬ d = 0›
    · exact div_le_div_of_nonneg_right hd s0
  | pin_light =>
    simp only [Mode.formula]
    split_ifs
    · exact min_le_min hd le_rfl
    · exact max_le_max hd le_rfl
  | hard_mix =>
    simp only [Mode.formula]
    split_ifs with h1 h2
    · exact le_rfl
    · exact zero_le_one
    · linarith
    · exact le_rfl
  | vivid_light =>
    simp only [Mode.formula]
    by_cases hs : s ≤ 1 / 2
    · simp only [if_pos hs]
      by_cases hh : s = 1 / 2
      · simp only [if_pos hh]
        split_ifs with h1 h2
        · exact le_rfl
        · exact zero_le_one
        · exact absurd (hz ‹d' = 0›) ‹¬ d = 0›
        · exact le_rfl
      · simp only [if_neg hh]
        have hp : 0 ≤ 1 - 2 * s := by linarith
        have key : ∀ x : ℝ, (if x = 0 then 0 else x / (1 - 2 * s)) = x / (1 - 2 * s) := by
          intro x; split_ifs with h
          · simp [h]
          · rfl
        rw [key, key]
        exact div_le_div_of_nonneg_right hd hp
    · simp only [if_neg hs]
      by_cases hh : s = 1
      · simp only [if_pos hh]
        split_ifs with h1 h2
        · exact le_rfl
        · exact absurd (le_antisymm d1 (h1 ▸ hd)) h2
        · exact zero_le_one
        · exact le_rfl
      · simp only [if_neg hh]
        have hp : 0 ≤ 2 * s - 1 := by linarith
        have key : ∀ x : ℝ, (if x = 1 then 1 else 1 - (1 - x) / (2 * s - 1)) = 1 - (1 - x) / (2 * s - 1) := by
          intro x; split_ifs with h
          · simp [h]
          · rfl
        rw [key, key]
        have := div_le_div_of_nonneg_right (show 1 - d' ≤ 1 - d by linarith) hp
        linarith
  | overlay =>
    have q3 := mul_nonneg s0 d0
    have q4 := mul_nonneg (sub_nonneg.mpr s1) (sub_nonneg.mpr d1)
    have q5 := mul_nonneg s0 (sub_nonneg.mpr d1)
    simp only [Mode.formula]
    split_ifs <;> nlinarith
  | _ =>
    simp only [Mode.formula]
    try split_ifs
    all_goals nlinarith

theorem formula_grows_s {m : Mode} (h : m.GrowsWithSource) (δ : ℝ) (i : Nat) {s s' d : ℝ} (s0 : 0 ≤ s) (hs : s ≤ s') (s1 : s' ≤ 1) (d0 : 0 ≤ d) (d1 : d ≤ 1) :
    m.formula δ i s d ≤ m.formula δ i s' d := by
  have q1 := mul_nonneg d0 (sub_nonneg.mpr hs)
  have q2 := mul_nonneg (sub_nonneg.mpr d1) (sub_nonneg.mpr hs)
  cases h with
  | darken => exact min_le_min hs le_rfl
  | lighten => exact max_le_max hs le_rfl
  | color_dodge =>
    simp only [Mode.formula]
    split_ifs with h1 h2 h3 h4 h5
    · exact le_rfl
    · exact le_rfl
    · exact absurd (le_antisymm s1 (h2 ▸ hs)) h3
    · exact min_le_right _ _
    · refine min_le_min (div_le_div_of_nonneg_left d0 ?_ (by linarith)) le_rfl
      exact sub_pos.mpr (lt_of_le_of_ne s1 h4)
  | pin_light =>
    simp only [Mode.formula]
    split_ifs
    · exact min_le_min le_rfl (by linarith)
    · exact (min_le_left _ _).trans (le_max_left _ _)
    · linarith
    · exact max_le_max le_rfl (by linarith)
  | hard_mix =>
    simp only [Mode.formula]
    split_ifs with h1 h2
    · exact le_rfl
    · exact zero_le_one
    · linarith
    · exact le_rfl
  | hard_light =>
    have q3 := mul_nonneg s0 d0
    have q4 := mul_nonneg (sub_nonneg.mpr s1) (sub_nonneg.mpr d1)
    have q5 := mul_nonneg d0 (sub_nonneg.mpr s1)
    simp only [Mode.formula]
    split_ifs <;> nlinarith
  | _ =>
    simp only [Mode.formula]
    try split_ifs
    all_goals nlinarith

theorem formula_dual {m n : Mode} (h : m.Dual n) : ∀ (δ : ℝ) (i : Nat) {s d : ℝ}, 0 ≤ s → s ≤ 1 → 0 ≤ d → d ≤ 1 →
    n.formula δ i (1 - s) (1 - d) = 1 - m.formula δ i s d ∧ 0 ≤ m.formula δ i s d ∧ m.formula δ i s d ≤ 1 := by
  have lim : ∀ a b : ℝ, max (1 - a) (1 - b) = 1 - min a b := fun a b => by
    rcases le_total a b with h | h
    · rw [min_eq_left h, max_eq_left (by linarith)]
    · rw [min_eq_right h, max_eq_right (by linarith)]
  have lim' : ∀ a b : ℝ, min (1 - a) (1 - b) = 1 - max a b := fun a b => by
    rcases le_total a b with h | h
    · rw [max_eq_right h, min_eq_right (by linarith)]
    · rw [max_eq_left h, min_eq_left (by linarith)]
  induction h with
  | symm _ ih =>
    intro δ i s d s0 s1 d0 d1
    obtain ⟨h1, h2, h3⟩ := ih δ i (s := 1 - s) (d := 1 - d) (by linarith) (by linarith) (by linarith) (by linarith)
    rw [sub_sub_cancel, sub_sub_cancel] at h1
    exact ⟨by linarith, by linarith, by linarith⟩
  | normal => intro δ i s d s0 s1 d0 d1; exact ⟨rfl, s0, s1⟩
  | multiply => intro δ i s d s0 s1 d0 d1; exact ⟨by simp only [Mode.formula]; ring, mul_nonneg s0 d0, mul_le_one₀ s1 d0 d1⟩
  | darken => intro δ i s d s0 s1 d0 d1; exact ⟨lim _ _, le_min s0 d0, (min_le_left _ _).trans s1⟩
  | overlay =>
    intro δ i s d s0 s1 d0 d1
    have p1 := mul_nonneg s0 d0
    have p2 := mul_nonneg (sub_nonneg.mpr s1) (sub_nonneg.mpr d1)
    simp only [Mode.formula]
    refine ⟨?_, ?_, ?_⟩
    · split_ifs with h1 h2 h2
      · have : d = 1 / 2 := by linarith
        subst this; ring
      · ring
      · ring
      · exfalso; linarith
    · split_ifs <;> nlinarith
    · split_ifs <;> nlinarith
  | hard_light =>
    intro δ i s d s0 s1 d0 d1
    have p1 := mul_nonneg s0 d0
    have p2 := mul_nonneg (sub_nonneg.mpr s1) (sub_nonneg.mpr d1)
    simp only [Mode.formula]
    refine ⟨?_, ?_, ?_⟩
    · split_ifs with h1 h2 h2
      · have : s = 1 / 2 := by linarith
        subst this; ring
      · ring
      · ring
      · exfalso; linarith
    · split_ifs <;> nlinarith
    · split_ifs <;> nlinarith
  | pin_light =>
    intro δ i s d s0 s1 d0 d1
    simp only [Mode.formula]
    refine ⟨?_, ?_, ?_⟩
    · split_ifs with h1 h2 h2
      · have : s = 1 / 2 := by linarith
        subst this
        rw [min_eq_left (by linarith), min_eq_left (by linarith)]
      · rw [show 2 * (1 - s) = 1 - (2 * s - 1) by ring, lim']
      · rw [show 2 * (1 - s) - 1 = 1 - 2 * s by ring, lim]
      · exfalso; linarith
    · split_ifs
      · exact le_min d0 (by linarith)
      · exact le_max_of_le_left d0
    · split_ifs
      · exact (min_le_left _ _).trans d1
      · exact max_le d1 (by linarith)

theorem formula_dual_limited {m n : Mode} (h : m.DualLimited n) : ∀ (δ : ℝ) (i : Nat) (s d : ℝ), n.formula δ i (1 - s) (1 - d) = 1 - m.formula δ i s d := by
  induction h with
  | symm _ ih =>
    intro δ i s d
    have := ih δ i (1 - s) (1 - d)
    rw [sub_sub_cancel, sub_sub_cancel] at this
    linarith
  | linear_light => intro δ i s d; simp only [Mode.formula]; split_ifs <;> ring
  | _ => intro δ i s d; simp only [Mode.formula]; ring

theorem limit_negative (x : ℝ) : limit (1 - x) = 1 - limit x := by
  unfold limit
  rcases le_total x 0 with h | h
  · rw [min_eq_left (by linarith), min_eq_right (by linarith), max_eq_right (by linarith), max_eq_left h]; ring
  · rcases le_total x 1 with h' | h'
    · rw [min_eq_right (by linarith), min_eq_right h', max_eq_right (by linarith), max_eq_right h]
    · rw [min_eq_right (by linarith), min_eq_left h', max_eq_left (by linarith), max_eq_right (by linarith)]; ring

end Blend

section
variable [FloatModel] [ExactModel]

theorem Blend.mode_darker {m n : Mode} (hm : m.Finite) (hn : n.Finite) (w : World) (us ud : Bool) {s d s' d' : Color} {s0 s1 s2 sa d0 d1 d2 da t0 t1 t2 e0 e1 e2 : ℝ}
    (hs : IsPixel s s0 s1 s2 sa) (hd : IsPixel d d0 d1 d2 da) (hs' : IsPixel s' t0 t1 t2 sa) (hd' : IsPixel d' e0 e1 e2 da) (hsp : s.space = d.space) (hsp' : s'.space = d'.space)
    (hss : s.space = s'.space) (a0 : s0 ≤ t0) (a1 : s1 ≤ t1) (a2 : s2 ≤ t2) (b0 : d0 ≤ e0) (b1 : d1 ≤ e1) (b2 : d2 ≤ e2)
    (v0 : m.formula (sa - da) 0 s0 d0 ≤ n.formula (sa - da) 0 t0 e0) (v1 : m.formula (sa - da) 1 s1 d1 ≤ n.formula (sa - da) 1 t1 e1)
    (v2 : m.formula (sa - da) 2 s2 d2 ≤ n.formula (sa - da) 2 t2 e2) :
    ∃ r r', Yields (m.run us ud) w s d r ∧ Yields (n.run us ud) w s' d' r' ∧ Darker r r' := by
  refine ⟨_, _, Blend.mode_exact m hm w us ud s d s0 s1 s2 sa d0 d1 d2 da hs hd hsp, Blend.mode_exact n hn w us ud s' d' t0 t1 t2 sa e0 e1 e2 da hs' hd' hsp', ?_⟩
  have hα := Blend.alphaOf_nonneg us ud hs.a0 hs.a1 hd.a0 hd.a1
  refine ⟨_, _, _, _, _, _, _, rfl, by rw [show (obj .rgbDeep _ _ _ _ s.space).space = s.space from rfl, hss], ?_, ?_, ?_⟩
  all_goals exact Blend.quot_mono hα (Blend.unit_mono (Blend.comb_mono us ud hs.a0 hs.a1 hd.a0 hd.a1 ‹_› ‹_› ‹_›))

/-- C139: whatever the two RGB_DEEP colours, their opacities and the regions in use, the results of two comparable modes are comparable: multiply is at most darken, darken at
most normal, normal at most lighten, lighten at most screen, screen at most linear_dodge, and so on (`Mode.Below`). -/
theorem C139_order (m n : Mode) (h : m.Below n) (w : World) (us ud : Bool) (s d : Color) (s0 s1 s2 sa d0 d1 d2 da : ℝ) (hs : IsPixel s s0 s1 s2 sa) (hd : IsPixel d d0 d1 d2 da)
    (hsp : s.space = d.space) : ∃ r r', Yields (m.run us ud) w s d r ∧ Yields (n.run us ud) w s d r' ∧ Darker r r' := by
  have hf : m.Finite ∧ n.Finite := by
    clear hs hd
    induction h with
    | trans _ _ h1 h2 => exact ⟨h1.1, h2.2⟩
    | _ => exact ⟨trivial, trivial⟩
  exact Blend.mode_darker hf.1 hf.2 w us ud hs hd hs hd hsp hsp rfl le_rfl le_rfl le_rfl le_rfl le_rfl le_rfl
    (Blend.formula_below h _ 0 hs.rgb.r0 hs.rgb.r1 hd.rgb.r0 hd.rgb.r1) (Blend.formula_below h _ 1 hs.rgb.g0 hs.rgb.g1 hd.rgb.g0 hd.rgb.g1)
    (Blend.formula_below h _ 2 hs.rgb.b0 hs.rgb.b1 hd.rgb.b0 hd.rgb.b1)

/-- Case: a red and a half transparent yellow; multiply is at most linear_dodge by way of darken, normal, lighten and screen. -/
example (w : World) : ∃ r r', Yields (ColorBlend.multiply true false) w (obj .rgbDeep 1 0 0 (fin 1) none) (obj .rgbDeep 0.5 1 0 (fin 0.5) none) r ∧
    Yields (ColorBlend.linear_dodge true false) w (obj .rgbDeep 1 0 0 (fin 1) none) (obj .rgbDeep 0.5 1 0 (fin 0.5) none) r' ∧ Darker r r' :=
  C139_order .multiply .linear_dodge
    (.trans .multiply_darken (.trans .darken_normal (.trans .normal_lighten (.trans .lighten_screen .screen_linear_dodge)))) w true false _ _ 1 0 0 1 0.5 1 0 0.5
    (isPixel_obj none (by norm_num) (by norm_num) (by norm_num) (by norm_num)) (isPixel_obj none (by norm_num) (by norm_num) (by norm_num) (by norm_num)) rfl

/-- C139, limits of the order: soft_light is not below screen (a middle grey source makes any destination almost white), and color_burn is not below multiply. -/
theorem C139_violated (w : World) (us ud : Bool) (sp : Option Nat) :
    (∃ r r', Yields (ColorBlend.soft_light us ud) w (obj .rgbDeep 0.6 0.6 0.6 (fin 1) sp) (obj .rgbDeep 0 0 0 (fin 1) sp) r ∧
      Yields (ColorBlend.screen us ud) w (obj .rgbDeep 0.6 0.6 0.6 (fin 1) sp) (obj .rgbDeep 0 0 0 (fin 1) sp) r' ∧ ¬ Darker r r') ∧
    (∃ r r', Yields (ColorBlend.color_burn us ud) w (obj .rgbDeep 0.5 0.5 0.5 (fin 1) sp) (obj .rgbDeep 0 0 0 (fin 1) sp) r ∧
      Yields (ColorBlend.multiply us ud) w (obj .rgbDeep 0.5 0.5 0.5 (fin 1) sp) (obj .rgbDeep 0 0 0 (fin 1) sp) r' ∧ ¬ Darker r r') := by
  have px : ∀ v : ℝ, 0 ≤ v → v ≤ 1 → IsPixel (obj .rgbDeep v v v (fin 1) sp) v v v 1 := fun v h0 h1 => isPixel_obj sp ⟨h0, h1⟩ ⟨h0, h1⟩ ⟨h0, h1⟩ (by norm_num)
  refine ⟨⟨_, _, C57_opaque .soft_light trivial w us ud _ _ 0.6 0.6 0.6 0 0 0 (px _ (by norm_num) (by norm_num)) (px _ le_rfl zero_le_one) rfl,
    C57_opaque .screen trivial w us ud _ _ 0.6 0.6 0.6 0 0 0 (px _ (by norm_num) (by norm_num)) (px _ le_rfl zero_le_one) rfl, ?_⟩,
    ⟨_, _, C57_opaque .color_burn trivial w us ud _ _ 0.5 0.5 0.5 0 0 0 (px _ (by norm_num) (by norm_num)) (px _ le_rfl zero_le_one) rfl,
    C57_opaque .multiply trivial w us ud _ _ 0.5 0.5 0.5 0 0 0 (px _ (by norm_num) (by norm_num)) (px _ le_rfl zero_le_one) rfl, ?_⟩⟩
  all_goals
    rintro ⟨x0, x1, x2, y0, y1, y2, a, e, e', h0, -, -⟩
    simp only [obj, Color.mk.injEq, List.cons.injEq, fin_inj] at e e'
    rw [← e.2.2.1.1, ← e'.2.2.1.1] at h0
    norm_num [Mode.formula, limit] at h0

/-- C140, destination: making the destination brighter in any channels, at the same opacity, makes no channel of the result darker, for eighteen modes. -/
theorem C140_destination (m : Mode) (h : m.GrowsWithDestination) (w : World) (us ud : Bool) (s d d' : Color) (s0 s1 s2 sa d0 d1 d2 da e0 e1 e2 : ℝ) (hs : IsPixel s s0 s1 s2 sa)
    (hd : IsPixel d d0 d1 d2 da) (hd' : IsPixel d' e0 e1 e2 da) (hsp : s.space = d.space) (hsp' : s.space = d'.space) (b0 : d0 ≤ e0) (b1 : d1 ≤ e1) (b2 : d2 ≤ e2) :
    ∃ r r', Yields (m.run us ud) w s d r ∧ Yields (m.run us ud) w s d' r' ∧ Darker r r' := by
  have hf : m.Finite := by cases h <;> trivial
  exact Blend.mode_darker hf hf w us ud hs hd hs hd' hsp hsp' rfl le_rfl le_rfl le_rfl b0 b1 b2
    (Blend.formula_grows_d h _ 0 hs.rgb.r0 hs.rgb.r1 hd.rgb.r0 b0 hd'.rgb.r1) (Blend.formula_grows_d h _ 1 hs.rgb.g0 hs.rgb.g1 hd.rgb.g0 b1 hd'.rgb.g1)
    (Blend.formula_grows_d h _ 2 hs.rgb.b0 hs.rgb.b1 hd.rgb.b0 b2 hd'.rgb.b1)

/-- C140, source: the same for the source and sixteen modes. -/
theorem C140_source (m : Mode) (h : m.GrowsWithSource) (w : World) (us ud : Bool) (s s' d : Color) (s0 s1 s2 sa d0 d1 d2 da t0 t1 t2 : ℝ) (hs : IsPixel s s0 s1 s2 sa)
    (hs' : IsPixel s' t0 t1 t2 sa) (hd : IsPixel d d0 d1 d2 da) (hsp : s.space = d.space) (hsp' : s'.space = d.space) (a0 : s0 ≤ t0) (a1 : s1 ≤ t1) (a2 : s2 ≤ t2) :
    ∃ r r', Yields (m.run us ud) w s d r ∧ Yields (m.run us ud) w s' d r' ∧ Darker r r' := by
  have hf : m.Finite := by cases h <;> trivial
  exact Blend.mode_darker hf hf w us ud hs hd hs' hd hsp hsp' (hsp.trans hsp'.symm) a0 a1 a2 le_rfl le_rfl le_rfl
    (Blend.formula_grows_s h _ 0 hs.rgb.r0 a0 hs'.rgb.r1 hd.rgb.r0 hd.rgb.r1) (Blend.formula_grows_s h _ 1 hs.rgb.g0 a1 hs'.rgb.g1 hd.rgb.g0 hd.rgb.g1)
    (Blend.formula_grows_s h _ 2 hs.rgb.b0 a2 hs'.rgb.b1 hd.rgb.b0 hd.rgb.b1)

/-- Case: vivid_light over a darker and a brighter destination; overlay of a darker and a brighter source. -/
example (w : World) : (∃ r r', Yields (ColorBlend.vivid_light true true) w (obj .rgbDeep 1 0.5 0 (fin 1) none) (obj .rgbDeep 0.5 0.5 0 (fin 0.5) none) r ∧
    Yields (ColorBlend.vivid_light true true) w (obj .rgbDeep 1 0.5 0 (fin 1) none) (obj .rgbDeep 0.5 1 0.1 (fin 0.5) none) r' ∧ Darker r r') ∧
    (∃ r r', Yields (ColorBlend.overlay true true) w (obj .rgbDeep 0.5 0.5 0 (fin 0.5) none) (obj .rgbDeep 1 0.5 0 (fin 1) none) r ∧
    Yields (ColorBlend.overlay true true) w (obj .rgbDeep 0.5 1 0.1 (fin 0.5) none) (obj .rgbDeep 1 0.5 0 (fin 1) none) r' ∧ Darker r r') :=
  ⟨C140_destination .vivid_light .vivid_light w true true _ _ _ 1 0.5 0 1 0.5 0.5 0 0.5 0.5 1 0.1 (isPixel_obj none (by norm_num) (by norm_num) (by norm_num) (by norm_num))
    (isPixel_obj none (by norm_num) (by norm_num) (by norm_num) (by norm_num)) (isPixel_obj none (by norm_num) (by norm_num) (by norm_num) (by norm_num)) rfl rfl (by norm_num)
    (by norm_num) (by norm_num),
   C140_source .overlay .overlay w true true _ _ _ 0.5 0.5 0 0.5 1 0.5 0 1 0.5 1 0.1 (isPixel_obj none (by norm_num) (by norm_num) (by norm_num) (by norm_num))
    (isPixel_obj none (by norm_num) (by norm_num) (by norm_num) (by norm_num)) (isPixel_obj none (by norm_num) (by norm_num) (by norm_num) (by norm_num)) rfl rfl (by norm_num)
    (by norm_num) (by norm_num)⟩

/-- C140, violated: with soft_light a brighter source can give a darker result, with color_burn a brighter destination does, and with vivid_light an almost white source is brighter
than a white one. -/
theorem C140_violated (w : World) (us ud : Bool) (sp : Option Nat) :
    (∃ r r', Yields (ColorBlend.soft_light us ud) w (obj .rgbDeep 0.6 0.6 0.6 (fin 1) sp) (obj .rgbDeep 0 0 0 (fin 1) sp) r ∧
      Yields (ColorBlend.soft_light us ud) w (obj .rgbDeep 1 1 1 (fin 1) sp) (obj .rgbDeep 0 0 0 (fin 1) sp) r' ∧ ¬ Darker r r') ∧
    (∃ r r', Yields (ColorBlend.color_burn us ud) w (obj .rgbDeep 0.5 0.5 0.5 (fin 1) sp) (obj .rgbDeep 0 0 0 (fin 1) sp) r ∧
      Yields (ColorBlend.color_burn us ud) w (obj .rgbDeep 0.5 0.5 0.5 (fin 1) sp) (obj .rgbDeep 1 1 1 (fin 1) sp) r' ∧ ¬ Darker r r') ∧
    (∃ r r', Yields (ColorBlend.vivid_light us ud) w (obj .rgbDeep 0.9 0.9 0.9 (fin 1) sp) (obj .rgbDeep 0.5 0.5 0.5 (fin 1) sp) r ∧
      Yields (ColorBlend.vivid_light us ud) w (obj .rgbDeep 1 1 1 (fin 1) sp) (obj .rgbDeep 0.5 0.5 0.5 (fin 1) sp) r' ∧ ¬ Darker r r') := by
  have px : ∀ v : ℝ, 0 ≤ v → v ≤ 1 → IsPixel (obj .rgbDeep v v v (fin 1) sp) v v v 1 := fun v h0 h1 => isPixel_obj sp ⟨h0, h1⟩ ⟨h0, h1⟩ ⟨h0, h1⟩ (by norm_num)
  refine ⟨⟨_, _, C57_opaque .soft_light trivial w us ud _ _ 0.6 0.6 0.6 0 0 0 (px _ (by norm_num) (by norm_num)) (px _ le_rfl zero_le_one) rfl,
    C57_opaque .soft_light trivial w us ud _ _ 1 1 1 0 0 0 (px _ (by norm_num) (by norm_num)) (px _ le_rfl zero_le_one) rfl, ?_⟩,
    ⟨_, _, C57_opaque .color_burn trivial w us ud _ _ 0.5 0.5 0.5 0 0 0 (px _ (by norm_num) (by norm_num)) (px _ le_rfl zero_le_one) rfl,
    C57_opaque .color_burn trivial w us ud _ _ 0.5 0.5 0.5 1 1 1 (px _ (by norm_num) (by norm_num)) (px _ zero_le_one le_rfl) rfl, ?_⟩,
    ⟨_, _, C57_opaque .vivid_light trivial w us ud _ _ 0.9 0.9 0.9 0.5 0.5 0.5 (px _ (by norm_num) (by norm_num)) (px _ (by norm_num) (by norm_num)) rfl,
    C57_opaque .vivid_light trivial w us ud _ _ 1 1 1 0.5 0.5 0.5 (px _ (by norm_num) (by norm_num)) (px _ (by norm_num) (by norm_num)) rfl, ?_⟩⟩
  all_goals
    rintro ⟨x0, x1, x2, y0, y1, y2, a, e, e', h0, -, -⟩
    simp only [obj, Color.mk.injEq, List.cons.injEq, fin_inj] at e e'
    rw [← e.2.2.1.1, ← e'.2.2.1.1] at h0
    norm_num [Mode.formula, limit] at h0

/-- C141: blending the negatives of two colours with the dual mode gives the negative of the blend: screen for multiply, lighten for darken, and normal, overlay, hard_light and
pin_light for themselves; for all opacities and whichever regions
are in use, provided something is left of the result. -/
theorem C141_dual (m n : Mode) (h : m.Dual n) (w : World) (us ud : Bool) (s d s' d' : Color) (s0 s1 s2 sa d0 d1 d2 da : ℝ) (hs : IsPixel s s0 s1 s2 sa) (hd : IsPixel d d0 d1 d2 da)
    (hs' : Negative s s') (hd' : Negative d d') (hsp : s.space = d.space) (hα : 0 < sa * (1 - da) ∧ us = true ∨ 0 < da * (1 - sa) ∧ ud = true ∨ 0 < sa * da) :
    ∃ r r', Yields (m.run us ud) w s d r ∧ Yields (n.run us ud) w s' d' r' ∧ Negative r r' := by
  have hf : m.Finite ∧ n.Finite := by
    clear hs hd
    induction h with
    | symm _ ih => exact ⟨ih.2, ih.1⟩
    | _ => exact ⟨trivial, trivial⟩
  have neg : ∀ {c c' : Color} {x y z a : ℝ}, IsPixel c x y z a → Negative c c' → IsPixel c' (1 - x) (1 - y) (1 - z) a ∧ c'.space = c.space := by
    intro c c' x y z a hc hn
    obtain ⟨r, g, b, a', e, e'⟩ := hn.values
    have hh := hc.eq.symm.trans e
    simp only [obj, Color.mk.injEq, List.cons.injEq, fin_inj, and_true] at hh
    obtain ⟨-, -, ⟨h1, h2, h3⟩, h4⟩ := hh
    subst h1 h2 h3 h4
    rw [e']
    exact ⟨isPixel_obj _ ⟨by linarith [hc.rgb.r1], by linarith [hc.rgb.r0]⟩ ⟨by linarith [hc.rgb.g1], by linarith [hc.rgb.g0]⟩ ⟨by linarith [hc.rgb.b1], by linarith [hc.rgb.b0]⟩
      ⟨hc.a0, hc.a1⟩, rfl⟩
  obtain ⟨ps, es⟩ := neg hs hs'
  obtain ⟨pd, ed⟩ := neg hd hd'
  refine ⟨_, _, Blend.mode_exact m hf.1 w us ud s d s0 s1 s2 sa d0 d1 d2 da hs hd hsp, Blend.mode_exact n hf.2 w us ud s' d' _ _ _ sa _ _ _ da ps pd (es.trans (hsp.trans ed.symm)), ⟨_, _, _, _, rfl, ?_⟩⟩
  have A := mul_nonneg hs.a0 (sub_nonneg.mpr hd.a1)
  have D := mul_nonneg hd.a0 (sub_nonneg.mpr hs.a1)
  have B := mul_nonneg hs.a0 hd.a0
  have A' := mul_nonneg A (Blend.weight_nonneg us)
  have D' := mul_nonneg D (Blend.weight_nonneg ud)
  have wt : Blend.weight true = 1 := rfl
  have hpos : 0 < Blend.alphaOf us ud true sa da := by
    unfold Blend.alphaOf
    rw [wt]
    rcases hα with ⟨h, rfl⟩ | ⟨h, rfl⟩ | h
    · rw [wt]; linarith
    · rw [wt]; linarith
    · linarith
  have hle : Blend.alphaOf us ud true sa da ≤ 1 := by
    have u1 : ∀ b, Blend.weight b ≤ 1 := by intro b; cases b <;> simp [Blend.weight]
    have h1 := mul_le_mul_of_nonneg_left (u1 us) A
    have h2 := mul_le_mul_of_nonneg_left (u1 ud) D
    have h3 := mul_nonneg (sub_nonneg.mpr hs.a1) (sub_nonneg.mpr hd.a1)
    unfold Blend.alphaOf
    rw [wt]
    nlinarith
  have key : ∀ i {x y : ℝ}, 0 ≤ x → x ≤ 1 → 0 ≤ y → y ≤ 1 →
      Blend.quot (Blend.alphaOf us ud true sa da) (Blend.unit (Blend.comb us ud sa da (1 - x) (1 - y) (n.formula (sa - da) i (1 - x) (1 - y)))) =
      1 - Blend.quot (Blend.alphaOf us ud true sa da) (Blend.unit (Blend.comb us ud sa da x y (m.formula (sa - da) i x y))) := by
    intro i x y x0 x1 y0 y1
    obtain ⟨e, v0, v1⟩ := Blend.formula_dual h (sa - da) i x0 x1 y0 y1
    set v := m.formula (sa - da) i x y
    have c0 : 0 ≤ Blend.comb us ud sa da x y v := by
      have h1 := mul_nonneg A' x0
      have h2 := mul_nonneg D' y0
      have h3 := mul_nonneg B v0
      unfold Blend.comb
      nlinarith
    have c1 : Blend.comb us ud sa da x y v ≤ Blend.alphaOf us ud true sa da := by
      have h1 := mul_le_mul_of_nonneg_left x1 A'
      have h2 := mul_le_mul_of_nonneg_left y1 D'
      have h3 := mul_le_mul_of_nonneg_left v1 B
      unfold Blend.comb Blend.alphaOf
      rw [wt]
      nlinarith
    have e' : Blend.comb us ud sa da (1 - x) (1 - y) (1 - v) = Blend.alphaOf us ud true sa da - Blend.comb us ud sa da x y v := by
      unfold Blend.comb Blend.alphaOf
      rw [wt]
      ring
    rw [e, e', Blend.unit_of c0 (c1.trans hle), Blend.unit_of (by linarith) (by linarith)]
    unfold Blend.quot
    rw [if_neg hpos.ne', if_neg hpos.ne', sub_div, div_self hpos.ne']
  rw [key 0 hs.rgb.r0 hs.rgb.r1 hd.rgb.r0 hd.rgb.r1, key 1 hs.rgb.g0 hs.rgb.g1 hd.rgb.g0 hd.rgb.g1, key 2 hs.rgb.b0 hs.rgb.b1 hd.rgb.b0 hd.rgb.b1, es]
  rfl

/-- C141 for opaque colours and the modes that add: linear_dodge and linear_burn, plus_lighter and plus_darker, and linear_light with itself. -/
theorem C141_dual_limited (m n : Mode) (h : m.DualLimited n) (w : World) (us ud : Bool) (sp : Option Nat) (s0 s1 s2 d0 d1 d2 : ℝ) (hs : IsPixel (obj .rgbDeep s0 s1 s2 (fin 1) sp) s0 s1 s2 1)
    (hd : IsPixel (obj .rgbDeep d0 d1 d2 (fin 1) sp) d0 d1 d2 1) : ∃ r r', Yields (m.run us ud) w (obj .rgbDeep s0 s1 s2 (fin 1) sp) (obj .rgbDeep d0 d1 d2 (fin 1) sp) r ∧
      Yields (n.run us ud) w (obj .rgbDeep (1 - s0) (1 - s1) (1 - s2) (fin 1) sp) (obj .rgbDeep (1 - d0) (1 - d1) (1 - d2) (fin 1) sp) r' ∧ Negative r r' := by
  have hf : m.Finite ∧ n.Finite := by
    induction h with
    | symm _ ih => exact ⟨ih.2, ih.1⟩
    | _ => exact ⟨trivial, trivial⟩
  have neg : ∀ {c : Color} {x y z : ℝ}, IsPixel c x y z 1 → IsPixel (obj .rgbDeep (1 - x) (1 - y) (1 - z) (fin 1) sp) (1 - x) (1 - y) (1 - z) 1 := fun hc =>
    isPixel_obj _ ⟨by linarith [hc.rgb.r1], by linarith [hc.rgb.r0]⟩ ⟨by linarith [hc.rgb.g1], by linarith [hc.rgb.g0]⟩ ⟨by linarith [hc.rgb.b1], by linarith [hc.rgb.b0]⟩ (by norm_num)
  refine ⟨_, _, C57_opaque m hf.1 w us ud _ _ s0 s1 s2 d0 d1 d2 hs hd rfl, C57_opaque n hf.2 w us ud _ _ _ _ _ _ _ _ (neg hs) (neg hd) rfl, ⟨_, _, _, _, rfl, ?_⟩⟩
  simp only [Blend.formula_dual_limited h, Blend.limit_negative]
  rfl

/-- C141 for difference and exclusion: the negatives are as far apart as the colours.  Opaque colours. -/
theorem C141_apart (m : Mode) (h : m.Contrast) (w : World) (us ud : Bool) (sp : Option Nat) (s0 s1 s2 d0 d1 d2 : ℝ) (hs : IsPixel (obj .rgbDeep s0 s1 s2 (fin 1) sp) s0 s1 s2 1)
    (hd : IsPixel (obj .rgbDeep d0 d1 d2 (fin 1) sp) d0 d1 d2 1) : ∃ r, Yields (m.run us ud) w (obj .rgbDeep s0 s1 s2 (fin 1) sp) (obj .rgbDeep d0 d1 d2 (fin 1) sp) r ∧
      Yields (m.run us ud) w (obj .rgbDeep (1 - s0) (1 - s1) (1 - s2) (fin 1) sp) (obj .rgbDeep (1 - d0) (1 - d1) (1 - d2) (fin 1) sp) r := by
  have hf : m.Finite := by cases h <;> trivial
  have neg : ∀ {c : Color} {x y z : ℝ}, IsPixel c x y z 1 → IsPixel (obj .rgbDeep (1 - x) (1 - y) (1 - z) (fin 1) sp) (1 - x) (1 - y) (1 - z) 1 := fun hc =>
    isPixel_obj _ ⟨by linarith [hc.rgb.r1], by linarith [hc.rgb.r0]⟩ ⟨by linarith [hc.rgb.g1], by linarith [hc.rgb.g0]⟩ ⟨by linarith [hc.rgb.b1], by linarith [hc.rgb.b0]⟩ (by norm_num)
  have key : ∀ i (x y : ℝ), m.formula 0 i (1 - x) (1 - y) = m.formula 0 i x y := by
    intro i x y
    cases h <;> simp only [Mode.formula]
    · rw [show 1 - x - (1 - y) = -(x - y) by ring, abs_neg]
    · ring
  have h2 := C57_opaque m hf w us ud _ _ _ _ _ _ _ _ (neg hs) (neg hd) rfl
  simp only [key] at h2
  exact ⟨_, C57_opaque m hf w us ud _ _ s0 s1 s2 d0 d1 d2 hs hd rfl, h2⟩

/-- Cases: the hypotheses hold for a half transparent source, for linear_dodge and for difference. -/
example (w : World) : (∃ r r', Yields (ColorBlend.multiply true true) w (obj .rgbDeep 1 0.5 0 (fin 0.5) none) (obj .rgbDeep 0.5 0.5 0 (fin 1) none) r ∧
      Yields (ColorBlend.screen true true) w (obj .rgbDeep (1 - 1) (1 - 0.5) (1 - 0) (fin 0.5) none) (obj .rgbDeep (1 - 0.5) (1 - 0.5) (1 - 0) (fin 1) none) r' ∧ Negative r r') ∧
    (∃ r r', Yields (ColorBlend.linear_burn true true) w (obj .rgbDeep 1 0.5 0 (fin 1) none) (obj .rgbDeep 0.5 0.5 0 (fin 1) none) r ∧
      Yields (ColorBlend.linear_dodge true true) w (obj .rgbDeep (1 - 1) (1 - 0.5) (1 - 0) (fin 1) none) (obj .rgbDeep (1 - 0.5) (1 - 0.5) (1 - 0) (fin 1) none) r' ∧ Negative r r') := by
  refine ⟨C141_dual .multiply .screen .multiply w true true _ _ _ _ 1 0.5 0 0.5 0.5 0.5 0 1 (isPixel_obj none (by norm_num) (by norm_num) (by norm_num) (by norm_num))
    (isPixel_obj none (by norm_num) (by norm_num) (by norm_num) (by norm_num)) ⟨_, _, _, _, rfl, rfl⟩ ⟨_, _, _, _, rfl, rfl⟩ rfl (by norm_num),
    C141_dual_limited .linear_burn .linear_dodge (.symm .linear_dodge) w true true none 1 0.5 0 0.5 0.5 0 (isPixel_obj none (by norm_num) (by norm_num) (by norm_num) (by norm_num))
    (isPixel_obj none (by norm_num) (by norm_num) (by norm_num) (by norm_num))⟩

/-- C141, violated: color_burn is not the negative of color_dodge; on the negatives it gives the very same colour as color_dodge does.  Opaque colours. -/
theorem C141_violated (w : World) (us ud : Bool) (sp : Option Nat) (s0 s1 s2 d0 d1 d2 : ℝ) (hs : IsPixel (obj .rgbDeep s0 s1 s2 (fin 1) sp) s0 s1 s2 1)
    (hd : IsPixel (obj .rgbDeep d0 d1 d2 (fin 1) sp) d0 d1 d2 1) : ∃ r, Yields (ColorBlend.color_dodge us ud) w (obj .rgbDeep s0 s1 s2 (fin 1) sp) (obj .rgbDeep d0 d1 d2 (fin 1) sp) r ∧
      Yields (ColorBlend.color_burn us ud) w (obj .rgbDeep (1 - s0) (1 - s1) (1 - s2) (fin 1) sp) (obj .rgbDeep (1 - d0) (1 - d1) (1 - d2) (fin 1) sp) r := by
  have neg : ∀ {c : Color} {x y z : ℝ}, IsPixel c x y z 1 → IsPixel (obj .rgbDeep (1 - x) (1 - y) (1 - z) (fin 1) sp) (1 - x) (1 - y) (1 - z) 1 := fun hc =>
    isPixel_obj _ ⟨by linarith [hc.rgb.r1], by linarith [hc.rgb.r0]⟩ ⟨by linarith [hc.rgb.g1], by linarith [hc.rgb.g0]⟩ ⟨by linarith [hc.rgb.b1], by linarith [hc.rgb.b0]⟩ (by norm_num)
  have key : ∀ i (x y : ℝ), Mode.color_burn.formula 0 i (1 - x) (1 - y) = Mode.color_dodge.formula 0 i x y := by
    intro i x y
    simp only [Mode.formula, sub_sub_cancel, sub_eq_self, sub_eq_zero, @eq_comm ℝ 1 x]
  have h2 := C57_opaque .color_burn trivial w us ud _ _ _ _ _ _ _ _ (neg hs) (neg hd) rfl
  simp only [key] at h2
  exact ⟨_, C57_opaque .color_dodge trivial w us ud _ _ s0 s1 s2 d0 d1 d2 hs hd rfl, h2⟩

end
