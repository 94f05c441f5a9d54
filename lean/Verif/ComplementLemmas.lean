import Verif.TripLemmas

/-! Helper lemmas about colours opposite on the hue circle, in exact arithmetic. -/

open Outcome Fl ObjectSpec ConvSpec

namespace Hue

/-- The opposite sector. -/
def Sector.opp : Sector → Sector
  | A => D
  | B => E
  | C => F
  | D => A
  | E => B
  | F => C

theorem opp_channels (k : Sector) (u : ℝ) : k.opp.red (1 - u) = 1 - k.red u ∧ k.opp.green (1 - u) = 1 - k.green u ∧ k.opp.blue (1 - u) = 1 - k.blue u := by
  cases k <;> simp [Sector.opp, Sector.red, Sector.green, Sector.blue]

theorem opp_hue (k : Sector) (u : ℝ) : k.opp.hue (1 - u) = k.hue u + 180 ∨ k.opp.hue (1 - u) = k.hue u - 180 := by
  cases k <;> simp only [Sector.opp, Sector.hue]
  · left; ring
  · left; ring
  · left; ring
  · right; ring
  · right; ring
  · right; ring

variable [FloatModel] [ExactModel]

/-- The hue setter on the opposite hue: unless limited, it stores a position with the opposite channels. -/
theorem opp_stored (k : Sector) {u : ℝ} (u0 : 0 ≤ u) (u1 : u ≤ 1) (hf : k = .F → 0 < u) (hgap : ¬ (k = .C ∧ 59 / 60 < u ∧ u < 1)) :
    ∃ k' u', 0 ≤ u' ∧ u' ≤ 1 ∧ Color.clamp (Color.hueReduce (fin (k.hue u + 180))) 359 0 = fin (Sector.hue k' u') ∧ k'.red u' = 1 - k.red u ∧
      k'.green u' = 1 - k.green u ∧ k'.blue u' = 1 - k.blue u := by
  have key : ∀ v : ℝ, 0 ≤ v → v ≤ 359 → (v = k.hue u + 180 ∨ v = k.hue u + 180 - 360) → Color.clamp (Color.hueReduce (fin (k.hue u + 180))) 359 0 = fin v := by
    intro v v0 v1 hv
    have hr : Color.hueReduce (fin (k.hue u + 180)) = fin v := by
      rw [Color.hueReduce_fin _ (rnd_exact _)]
      congr 1
      rw [← Color.fract_small v0 (by linarith)]
      rcases hv with hv | hv
      · rw [hv]
      · have : (k.hue u + 180) / 360 = v / 360 + (1 : ℤ) := by rw [hv]; push_cast; ring
        rw [this, Int.fract_add_intCast]
    rw [hr]
    simpa using Color.clamp_of_inRange (v := fin v) (mn := 0) (mx := 359) (by simp [v0, v1])
  obtain ⟨c1, c2, c3⟩ := opp_channels k u
  by_cases hC : k = .C ∧ u = 1
  · obtain ⟨rfl, rfl⟩ := hC
    refine ⟨.A, 0, le_rfl, zero_le_one, key _ ?_ ?_ ?_, ?_, ?_, ?_⟩ <;> norm_num [Sector.hue, Sector.red, Sector.green, Sector.blue]
  · refine ⟨k.opp, 1 - u, by linarith, by linarith, key _ ?_ ?_ ?_, c1, c2, c3⟩
    · cases k <;> simp only [Sector.opp, Sector.hue] <;> linarith
    · cases k <;> simp only [Sector.opp, Sector.hue] <;> try linarith
      have : u ≤ 59 / 60 := by
        by_contra hh
        exact hgap ⟨rfl, not_le.mp hh, lt_of_le_of_ne u1 (fun h => hC ⟨rfl, h⟩)⟩
      linarith
    · rcases opp_hue k u with h | h
      · exact Or.inl h
      · right; rw [h]; ring

/-- RGB to HSL, half a turn, and back. -/
theorem complement_rgb {c : Color} {r g b : ℝ} (h : IsRgb c r g b) (hb : ¬ (r = 0 ∧ g = 0 ∧ b = 0)) (hg1 : ¬ HueGap r g b) (hg2 : ¬ (b < g ∧ 60 * (g - b) < g - r)) :
    ∃ x y z, Leaf.rgb_deep_to_hsl c = ok (obj .hsl x y z c.malpha c.space) ∧
      Leaf.hsl_to_rgb_deep (Color.mkHue .hsl (fin (x + 180)) (fin y) (fin z) c.malpha c.space) =
        ok (obj .rgbDeep (max (max r g) b + min (min r g) b - r) (max (max r g) b + min (min r g) b - g) (max (max r g) b + min (min r g) b - b) c.malpha c.space) := by
  obtain ⟨-, -, r0, r1, g0, g1, b0, b1⟩ := id h
  rw [rgb_eq h]
  generalize c.malpha = al
  generalize c.space = sp
  simp only [obj_malpha, obj_space]
  by_cases hne : max (max r g) b = min (min r g) b
  · obtain ⟨rfl, rfl⟩ := grey_of hne
    have hb' : b ≠ 0 := fun hh => hb ⟨hh, hh, hh⟩
    refine ⟨0, 0, b, ?_, ?_⟩
    · simp only [Leaf.rgb_deep_to_hsl, obj_0, obj_1, obj_2, obj_space, obj_malpha, obj_alpha _ _ _ _ _ _ (rfl : Color.scalesAlpha .rgbDeep = false), ok_bind, fmin_fin, fmax_fin, feq_fin,
        Color.construct_hsl]
      rw [if_pos hne, min_self, min_self, mkHue_grey _ _ _ ⟨rfl, rfl⟩ b0 b1]
    · have hx : Color.clamp (Color.hueReduce (fin (0 + 180))) 359 0 = fin (Sector.hue .C 1) := by
        rw [Color.hueReduce_id (by norm_num) (by norm_num)]
        simp only [lit_def, zero_def, Color.clamp_fin, Sector.hue]
        norm_num
      have : Color.mkHue .hsl (fin (0 + 180)) (fin 0) (fin b) al sp = obj .hsl (Sector.hue .C 1) 0 b al sp := by
        simp only [Color.mkHue, hx, clamp01 b0 b1, clamp01 (x := 0) le_rfl zero_le_one]
        rfl
      rw [this, from_hsl .C (by norm_num) le_rfl 0 b hb' al sp]
      simp only [zero_mul, sub_zero, max_self, min_self, add_sub_cancel_right]
      rw [mkRgb_obj _ _ b0 b1 b0 b1 b0 b1]
  · obtain ⟨mn, δ, k, u, hp, hh⟩ := exists_pos hne
    have hδ := hp.δ0
    have u0 := hp.u0
    have u1 := hp.u1
    have hmn0 : 0 ≤ mn := by rw [← hp.minEq]; exact le_min (le_min r0 g0) b0
    have hmx1 : mn + δ ≤ 1 := by rw [← hp.maxEq]; exact max_le (max_le r1 g1) b1
    have hue359 : k.hue u ≤ 359 := by
      by_contra hc
      have hF : k = .F := by
        cases k <;> simp only [Sector.hue] at hc <;> first | rfl | (exfalso; linarith)
      subst hF
      apply hg1
      have := hp.f rfl
      simp only [Sector.hue] at hc
      have hr := hp.red; have hgr := hp.green; have hbl := hp.blue
      simp only [Sector.red, Sector.green, Sector.blue] at hr hgr hbl
      refine ⟨by rw [hgr, hbl]; nlinarith, by rw [hr, hgr, hbl]; nlinarith⟩
    have hgap : ¬ (k = .C ∧ 59 / 60 < u ∧ u < 1) := by
      rintro ⟨rfl, ha, hb'⟩
      apply hg2
      have hr := hp.red; have hgr := hp.green; have hbl := hp.blue
      simp only [Sector.red, Sector.green, Sector.blue] at hr hgr hbl
      refine ⟨by rw [hgr, hbl]; nlinarith, by rw [hr, hgr, hbl]; nlinarith⟩
    obtain ⟨k', u', u0', u1', hst, d1, d2, d3⟩ := opp_stored k u0 u1 hp.f hgap
    set l := mn + δ / 2 with hl
    have l0 : 0 < l := by rw [hl]; linarith
    have l1 : l < 1 := by rw [hl]; linarith
    have habs : 1 - |2 * l - 1| = 2 * min l (1 - l) := by
      rcases le_total l (1 - l) with hle | hle
      · rw [min_eq_left hle, abs_of_nonpos (by linarith)]; ring
      · rw [min_eq_right hle, abs_of_nonneg (by linarith)]; ring
    have hm : 0 < min l (1 - l) := lt_min l0 (by linarith)
    have hd : δ ≤ 2 * min l (1 - l) := by
      rcases le_total l (1 - l) with hle | hle
      · rw [min_eq_left hle]; linarith
      · rw [min_eq_right hle]; linarith
    refine ⟨k.hue u, δ / (1 - |2 * l - 1|), l, ?_, ?_⟩
    · rw [hp.red, hp.green, hp.blue]
      exact to_hsl k al sp u0 u1 hδ hue359 hmn0 hmx1
    · have s0 : 0 ≤ δ / (1 - |2 * l - 1|) := by rw [habs]; positivity
      have s1 : δ / (1 - |2 * l - 1|) ≤ 1 := by rw [habs, div_le_one (by positivity)]; exact hd
      have : Color.mkHue .hsl (fin (k.hue u + 180)) (fin (δ / (1 - |2 * l - 1|))) (fin l) al sp = obj .hsl (Sector.hue k' u') (δ / (1 - |2 * l - 1|)) l al sp := by
        simp only [Color.mkHue, hst, clamp01 s0 s1, clamp01 l0.le l1.le]
        rfl
      rw [this, from_hsl k' u0' u1' _ _ l0.ne']
      have key : ∀ x, l - δ / (1 - |2 * l - 1|) * min l (1 - l) * (1 - 2 * (1 - x)) = max (max r g) b + min (min r g) b - (mn + δ * x) := by
        intro x
        have : δ / (1 - |2 * l - 1|) * min l (1 - l) = δ / 2 := by rw [habs]; field_simp
        rw [this, hp.maxEq, hp.minEq, hl]; ring
      rw [d1, d2, d3, key, key, key, ← hp.red, ← hp.green, ← hp.blue]
      have br : ∀ x, min (min r g) b ≤ x → x ≤ max (max r g) b → 0 ≤ max (max r g) b + min (min r g) b - x ∧ max (max r g) b + min (min r g) b - x ≤ 1 := by
        intro x x0 x1
        rw [hp.maxEq, hp.minEq] at *
        constructor <;> linarith
      have er := br r ((min_le_left _ _).trans (min_le_left _ _)) ((le_max_left _ _).trans (le_max_left _ _))
      have eg := br g ((min_le_left _ _).trans (min_le_right _ _)) ((le_max_right _ _).trans (le_max_left _ _))
      have eb := br b (min_le_right _ _) (le_max_right _ _)
      rw [mkRgb_obj _ _ er.1 er.2 eg.1 eg.2 eb.1 eb.2]

end Hue
