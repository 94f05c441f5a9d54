import Verif.Props.SingleGrey

/-!
# Greys on a trip through RGB in single precision (C45)

The grey of three equal channels `v` is computed as `(v + v + v) / 3`.  In binary32 that is not always `v`.
-/

open Outcome Fl Prog ObjectSpec ConvSpec HcyFine

namespace Binary32

theorem round_in {r : ℝ} (e : ℤ) (he : -149 ≤ e) (h1 : 2 ^ (e + 23) ≤ |r|) (h2 : |r| < 2 ^ (e + 24)) (h3 : |r| ≤ 4) : round32 r = .fin (rne (r / 2 ^ e) * 2 ^ e) := by
  have hv : value r = rne (r / 2 ^ e) * 2 ^ e := by unfold value; rw [ulp_eq he h1 h2]
  have hb : |value r| < 2 ^ 128 := by
    have a := value_error r
    have b := abs_sub_abs_le_abs_sub (value r) r
    norm_num at a ⊢
    linarith
  rw [abs_lt] at hb
  unfold round32
  rw [if_neg (not_le.mpr hb.2), if_neg (not_le.mpr hb.1), hv]

/-- Three times a normal number, rounded. -/
theorem triple (M e : ℤ) (h1 : 2 ^ 23 ≤ M) (h2 : M < 2 ^ 24) (he : -149 ≤ e) (hv : (M : ℝ) * 2 ^ e ≤ 1) :
    ∃ t : ℤ, round32 (3 * (M * 2 ^ e)) = .fin (t * 2 ^ e) ∧ |t - 3 * M| ≤ 2 ∧ 3 * 2 ^ 23 ≤ t ∧ t < 3 * 2 ^ 24 ∧ (|t - 3 * M| ≤ 1 ↔ ¬ (M % 4 = 2 ∧ 2 ^ 25 ≤ 3 * M)) := by
  have p := two_pos e
  have m1 : (2 : ℝ) ^ 23 ≤ M := by exact_mod_cast h1
  have m2 : (M : ℝ) < 2 ^ 24 := by exact_mod_cast h2
  have pos : (0 : ℝ) < 3 * (M * 2 ^ e) := by have : (0 : ℝ) < M := by linarith [show (0 : ℝ) < 2 ^ 23 by norm_num]
                                             positivity
  by_cases hc : 3 * M < 2 ^ 25
  · have c' : (3 : ℝ) * M < 2 ^ 25 := by exact_mod_cast hc
    have hr := round_in (r := 3 * (M * 2 ^ e)) (e + 1) (by omega) (by
      rw [abs_of_pos pos, show e + 1 + 23 = e + 24 by ring, zpow_add₀ (by norm_num)]
      norm_num at m1 ⊢; nlinarith) (by
      rw [abs_of_pos pos, show e + 1 + 24 = e + 25 by ring, zpow_add₀ (by norm_num)]
      norm_num at c' ⊢; nlinarith) (by rw [abs_of_pos pos]; linarith)
    have q : 3 * ((M : ℝ) * 2 ^ e) / 2 ^ (e + 1) = 3 * M / 2 := by rw [zpow_add₀ (by norm_num)]; field_simp
    rw [q] at hr
    have hn := rne_near (3 * (M : ℝ) / 2)
    generalize rne (3 * (M : ℝ) / 2) = k at hr hn
    have hk : |2 * k - 3 * M| ≤ 1 := by
      have : |(2 : ℝ) * k - 3 * M| ≤ 1 := by rw [abs_le] at hn ⊢; constructor <;> linarith
      exact_mod_cast this
    rw [abs_le] at hk
    refine ⟨2 * k, ?_, by rw [abs_le]; omega, by omega, by omega, ?_⟩
    · rw [hr, zpow_add₀ (by norm_num)]; push_cast; congr 1; ring
    · rw [abs_le]; constructor
      · intro _; omega
      · intro _; omega
  · have c' : (2 : ℝ) ^ 25 ≤ 3 * M := by exact_mod_cast not_lt.mp hc
    have hr := round_in (r := 3 * (M * 2 ^ e)) (e + 2) (by omega) (by
      rw [abs_of_pos pos, show e + 2 + 23 = e + 25 by ring, zpow_add₀ (by norm_num)]
      norm_num at c' ⊢; nlinarith) (by
      rw [abs_of_pos pos, show e + 2 + 24 = e + 26 by ring, zpow_add₀ (by norm_num)]
      norm_num at m2 ⊢; nlinarith) (by rw [abs_of_pos pos]; linarith)
    have q : 3 * ((M : ℝ) * 2 ^ e) / 2 ^ (e + 2) = 3 * M / 4 := by rw [zpow_add₀ (by norm_num)]; norm_num; field_simp
    rw [q] at hr
    have hn := rne_near (3 * (M : ℝ) / 4)
    generalize rne (3 * (M : ℝ) / 4) = k at hr hn
    have hk : |4 * k - 3 * M| ≤ 2 := by
      have : |(4 : ℝ) * k - 3 * M| ≤ 2 := by rw [abs_le] at hn ⊢; constructor <;> linarith
      exact_mod_cast this
    refine ⟨4 * k, ?_, hk, ?_, ?_, ?_⟩
    · rw [hr, zpow_add₀ (by norm_num)]; push_cast; congr 1; ring
    · rw [abs_le] at hk; omega
    · rw [abs_le] at hk; omega
    · rw [abs_le] at hk ⊢; omega

/-- The mean of three equal normal numbers. -/
theorem third_of_three (M e : ℤ) (h1 : 2 ^ 23 ≤ M) (h2 : M < 2 ^ 24) (he : -149 ≤ e) (hv : (M : ℝ) * 2 ^ e ≤ 1) : letI := binary32
    ∃ N : ℤ, (fin (M * 2 ^ e) + fin (M * 2 ^ e) + fin (M * 2 ^ e)) / (3 : Fl) = fin (N * 2 ^ e) ∧ |N - M| ≤ 1 ∧ N ≤ 2 ^ 24 ∧ (N = M ↔ ¬ (M % 4 = 2 ∧ 2 ^ 25 ≤ 3 * M)) := by
  letI := binary32
  have p := two_pos e
  obtain ⟨t, ht, t1, t2, t3, t4⟩ := triple M e h1 h2 he hv
  have e1 : fin ((M : ℝ) * 2 ^ e) + fin (M * 2 ^ e) = fin (M * 2 ^ (e + 1)) := by
    rw [fin_add, show (M : ℝ) * 2 ^ e + M * 2 ^ e = M * 2 ^ (e + 1) by rw [zpow_add₀ (by norm_num)]; ring]
    refine round_exact M (e + 1) (by rw [abs_of_nonneg (by omega)]; omega) (by omega) ?_
    have m0 : (0 : ℝ) ≤ M := by exact_mod_cast (show (0 : ℤ) ≤ M by omega)
    rw [abs_of_nonneg (by positivity), zpow_add₀ (by norm_num)]
    norm_num
    linarith
  have e2 : fin ((M : ℝ) * 2 ^ (e + 1)) + fin (M * 2 ^ e) = fin (t * 2 ^ e) := by
    rw [fin_add, show (M : ℝ) * 2 ^ (e + 1) + M * 2 ^ e = 3 * (M * 2 ^ e) by rw [zpow_add₀ (by norm_num)]; ring]
    exact ht
  have t2' : (3 : ℝ) * 2 ^ 23 ≤ t := by exact_mod_cast t2
  have t3' : (t : ℝ) < 3 * 2 ^ 24 := by exact_mod_cast t3
  have hdiv : ∀ N : ℤ, |(t : ℝ) - 3 * N| < 3 / 2 → fin ((t : ℝ) * 2 ^ e) / (3 : Fl) = fin (N * 2 ^ e) := by
    intro N hN
    rw [lit_def, fin_div _ _ (by norm_num)]
    have pos : 0 < (t : ℝ) * 2 ^ e / 3 := by have : (0 : ℝ) < t := by linarith [show (0 : ℝ) < 3 * 2 ^ 23 by norm_num]
                                             positivity
    refine round_eq N e he ?_ ?_ ?_ ?_
    · by_contra h
      have one : (2 : ℝ) ^ (0 : ℤ) ≤ 2 ^ e := zpow_le_zpow_right₀ (by norm_num) (by omega)
      have m1 : (2 : ℝ) ^ 23 ≤ M := by exact_mod_cast h1
      rw [zpow_zero] at one
      norm_num at m1
      nlinarith
    · rw [abs_of_pos pos, zpow_add₀ (by norm_num)]
      norm_num at t2' ⊢; nlinarith
    · rw [abs_of_pos pos, zpow_add₀ (by norm_num)]
      norm_num at t3' ⊢; nlinarith
    · rw [show (t : ℝ) * 2 ^ e / 3 / 2 ^ e - N = (t - 3 * N) / 3 by field_simp, abs_div, abs_of_pos (by norm_num : (0 : ℝ) < 3), div_lt_iff₀ (by norm_num)]
      linarith
  have near : ∀ N : ℤ, |t - 3 * N| ≤ 1 → |(t : ℝ) - 3 * N| < 3 / 2 := by
    intro N h
    have : |(t : ℝ) - 3 * N| ≤ 1 := by exact_mod_cast h
    linarith
  rw [e1, e2]
  by_cases hs : |t - 3 * M| ≤ 1
  · exact ⟨M, hdiv M (near M hs), by simp, h2.le, ⟨fun _ => t4.mp hs, fun _ => rfl⟩⟩
  · have bad : M % 4 = 2 ∧ 2 ^ 25 ≤ 3 * M := by
      by_contra h
      exact hs (t4.mpr h)
    rw [abs_le] at hs t1
    by_cases up : 3 * M < t
    · exact ⟨M + 1, hdiv _ (near _ (by rw [abs_le]; omega)), by simp, by omega, ⟨fun h => by omega, fun h => absurd bad h⟩⟩
    · exact ⟨M - 1, hdiv _ (near _ (by rw [abs_le]; omega)), by simp, by omega, ⟨fun h => by omega, fun h => absurd bad h⟩⟩

end Binary32

/-- **C45** Exactly which greys survive RGB in binary32: a GREY_DEEP colour whose level is a normal number with the 24-bit significand `M` comes back from RGB_DEEP unchanged unless `M` is 2 modulo 4 and at
least a third of `2^25`; then it comes back one unit in the last place off. -/
theorem C45_single_partial (w : World) (M e : ℤ) (h1 : 2 ^ 23 ≤ M) (h2 : M < 2 ^ 24) (he : -149 ≤ e) (hv : (M : ℝ) * 2 ^ e ≤ 1) (c : Color) (hc : IsColor .greyDeep c) (hcc : c.comps = [fin (M * 2 ^ e)]) :
    letI := Binary32.binary32
    ∃ N : ℤ, Trip w c .rgbDeep .greyDeep { c with comps := [fin (N * 2 ^ e)] } ∧ |N - M| ≤ 1 ∧ (N = M ↔ ¬ (M % 4 = 2 ∧ 2 ^ 25 ≤ 3 * M)) := by
  letI := Binary32.binary32
  have p := Binary32.two_pos e
  obtain ⟨N, hN, n1, n2, n3⟩ := Binary32.third_of_three M e h1 h2 he hv
  refine ⟨N, ?_, n1, n3⟩
  set v : ℝ := M * 2 ^ e with hvd
  have m1 : (2 : ℝ) ^ 23 ≤ M := by exact_mod_cast h1
  have v0 : 0 ≤ v := by have : (0 : ℝ) ≤ M := le_trans (by norm_num) m1
                        positivity
  have N0 : (0 : ℝ) ≤ N * 2 ^ e := by
    have : (0 : ℤ) ≤ N := by rw [abs_le] at n1; omega
    have : (0 : ℝ) ≤ N := by exact_mod_cast this
    positivity
  have N1 : (N : ℝ) * 2 ^ e ≤ 1 := by
    by_cases h : N ≤ M
    · have : (N : ℝ) ≤ M := by exact_mod_cast h
      exact (mul_le_mul_of_nonneg_right this p.le).trans hv
    · have e24 : e ≤ -24 := by
        by_contra hh
        have hM : M ≤ 2 ^ 23 := by
          have := zpow_le_zpow_right₀ (show (1 : ℝ) ≤ 2 by norm_num) (show (-23 : ℤ) ≤ e by omega)
          have hm0 : (0 : ℝ) ≤ M := le_trans (by norm_num) m1
          have : (M : ℝ) * 2 ^ (-23 : ℤ) ≤ 1 := (mul_le_mul_of_nonneg_left this hm0).trans hv
          have : (M : ℝ) ≤ 2 ^ 23 := by norm_num at this ⊢; linarith
          exact_mod_cast this
        have : N = M := n3.mpr (by omega)
        omega
      have q : (2 : ℝ) ^ e ≤ 2 ^ (-24 : ℤ) := zpow_le_zpow_right₀ (by norm_num) e24
      have hn : (N : ℝ) ≤ 2 ^ 24 := by exact_mod_cast n2
      calc (N : ℝ) * 2 ^ e ≤ 2 ^ 24 * 2 ^ (-24 : ℤ) := by gcongr
        _ = 1 := by norm_num
  have hcl : ∀ x : ℝ, 0 ≤ x → x ≤ 1 → Color.clamp (fin x) 1 0 = fin x := fun x a b => by
    rw [one_def, zero_def, Color.clamp_fin, min_eq_left b, max_eq_left a]
  have g0 : c.getComponent 0 = ok (fin v) := Conv.getComponent_of (by norm_num) (by rw [hcc]; rfl)
  have ca : c.alpha = c.malpha := by simp [Color.alpha, hc.cls, Color.scalesAlpha]
  refine trip_of (s := .greyDeep) (d := ⟨.rgbDeep, .rgbDeep, [fin v, fin v, fin v], c.malpha, 1, 0, c.space⟩) (by decide) (by decide) (by decide) hc ?_ ?_
  · change Leaf.grey_deep_to_rgb_deep c = _
    simp only [Leaf.grey_deep_to_rgb_deep, g0, ok_bind, ca, Color.constructGrey, Color.construct_rgbDeep, Color.mkRgbDeep, hcl v v0 hv]
  · change Leaf.rgb_deep_to_grey_deep _ = _
    have ra : (⟨.rgbDeep, .rgbDeep, [fin v, fin v, fin v], c.malpha, 1, 0, c.space⟩ : Color).alpha = c.malpha := by simp [Color.alpha, Color.scalesAlpha]
    simp only [Leaf.rgb_deep_to_grey_deep, Conv.get3_0, Conv.get3_1, Conv.get3_2, ok_bind, ra, hN, Color.construct_greyDeep, Color.mkGreyDeep, hcl _ N0 N1]
    obtain ⟨c1, c2, -, c3, c4⟩ := hc
    cases c
    simp only at c1 c2 c3 c4
    simp [c1, c2, c3, c4, Color.maxOf, Color.minOf]

/-- **C45 violated** A grey that does not survive RGB_DEEP in binary32: 11184814 / 2^24, which is the `float` nearest to 0.66666687. -/
theorem C45_single_violated (w : World) : letI := Binary32.binary32
    ∃ c : Color, IsColor .greyDeep c ∧ c.comps = [fin (11184814 / 2 ^ 24)] ∧ ¬ Trip w c .rgbDeep .greyDeep c := by
  letI := Binary32.binary32
  have ec : ((11184814 : ℤ) : ℝ) * 2 ^ (-24 : ℤ) = 11184814 / 2 ^ 24 := by norm_num
  refine ⟨⟨.greyDeep, .greyDeep, [fin (11184814 / 2 ^ 24)], 1, 1, 0, none⟩, ⟨rfl, rfl, rfl, rfl, rfl⟩, rfl, fun h => ?_⟩
  obtain ⟨N, hT, -, hN⟩ := C45_single_partial w 11184814 (-24) (by norm_num) (by norm_num) (by norm_num) (by norm_num) ⟨.greyDeep, .greyDeep, [fin (11184814 / 2 ^ 24)], 1, 1, 0, none⟩ ⟨rfl, rfl, rfl, rfl, rfl⟩ (by rw [ec])
  have e := congrArg Color.comps (h.unique hT)
  simp only [List.cons.injEq, fin_inj, and_true] at e
  rw [← ec] at e
  have := mul_right_cancel₀ (Binary32.two_pos (-24)).ne' e
  have : (11184814 : ℤ) = N := by exact_mod_cast this
  exact hN.mp this.symm (by norm_num)

/-- A half comes back. -/
example (w : World) : letI := Binary32.binary32
    ∃ N : ℤ, Trip w ⟨.greyDeep, .greyDeep, [fin ((2 ^ 23 : ℤ) * 2 ^ (-24 : ℤ))], 1, 1, 0, none⟩ .rgbDeep .greyDeep ⟨.greyDeep, .greyDeep, [fin (N * 2 ^ (-24 : ℤ))], 1, 1, 0, none⟩ ∧ N = 2 ^ 23 := by
  letI := Binary32.binary32
  obtain ⟨N, hT, -, hN⟩ := C45_single_partial w (2 ^ 23) (-24) (by norm_num) (by norm_num) (by norm_num) (by norm_num) ⟨.greyDeep, .greyDeep, [fin ((2 ^ 23 : ℤ) * 2 ^ (-24 : ℤ))], 1, 1, 0, none⟩
    ⟨rfl, rfl, rfl, rfl, rfl⟩ rfl
  exact ⟨N, hT, hN.mpr (by norm_num)⟩

/-- **C45** With an accuracy of one part in 2^23 per operation the grey value is the mean of the channels to 4e-7, so it lies between the smallest and the largest channel to within 4e-7; the opacity is
kept. -/
theorem C45_between_single_partial [FloatModel] [FineError] (h : Heap) (i : Nat) (c : Color) (hi : h.colors[i]? = some c) (r g b : ℝ) (hc : IsRgb c r g b) :
    ∃ q h' d v, Conv.dispatcher .greyDeep (some i) h = (ok (some q), h') ∧ h'.colors[q]? = some d ∧ d.comps = [fin v] ∧ d.alpha = c.alpha ∧ |v - (r + g + b) / 3| ≤ 4e-7 ∧
      min (min r g) b - 4e-7 ≤ v ∧ v ≤ max (max r g) b + 4e-7 := by
  obtain ⟨m1, m2⟩ := mean_between r g b
  have r0 := hc.r0; have r1 := hc.r1; have g0 := hc.g0; have g1 := hc.g1; have b0 := hc.b0; have b1 := hc.b1
  have n1 := nadd (near_fin r) (near_fin g) 2 2.5e-7 (by rw [abs_le]; constructor <;> linarith) (by norm_num) (by norm_num)
  have n2 := nadd n1 (near_fin b) 3 6.2e-7 (by rw [abs_le]; constructor <;> linarith) (by norm_num) (by norm_num)
  obtain ⟨s, es, ns⟩ := n2
  have n3 : Near ((fin r + fin g + fin b) / (3 : Fl)) ((r + g + b) / 3) 4e-7 := by
    rw [es, lit_def, fin_div _ _ (by norm_num)]
    refine rounded (s := s / 3) (ε := 2.1e-7) (M := 1) ?_ (by rw [abs_le]; constructor <;> linarith) _ (by norm_num) (by norm_num)
    rw [show s / 3 - (r + g + b) / 3 = (s - (r + g + b)) / 3 by ring, abs_div, abs_of_pos (show (0 : ℝ) < 3 by norm_num), div_le_iff₀ (by norm_num)]
    linarith
  obtain ⟨v, ev, nv⟩ := n3.clamp01 (by linarith) (by linarith)
  have ca : c.alpha = c.malpha := by simp [Color.alpha, hc.col.cls, Color.scalesAlpha]
  have hv : Val.conv .rgbDeep .greyDeep h.world c = ok ⟨.greyDeep, .greyDeep, [fin v], c.malpha, 1, 0, c.space⟩ := by
    change Leaf.rgb_deep_to_grey_deep c = _
    have k0 : c.getComponent 0 = ok (fin r) := Conv.getComponent_of (by norm_num) (by rw [hc.comps]; rfl)
    have k1 : c.getComponent 1 = ok (fin g) := Conv.getComponent_of (by norm_num) (by rw [hc.comps]; rfl)
    have k2 : c.getComponent 2 = ok (fin b) := Conv.getComponent_of (by norm_num) (by rw [hc.comps]; rfl)
    simp only [Leaf.rgb_deep_to_grey_deep, k0, k1, k2, ok_bind, ca, Color.construct_greyDeep, Color.mkGreyDeep, ev]
  obtain ⟨q, h', a1, a2, -, -⟩ := dispatcher_val (s := .rgbDeep) (by decide) (by decide) (by decide) hc.col hi hv
  have nv' := abs_le.mp nv
  exact ⟨q, h', _, v, a1, a2, rfl, by rw [ca]; rfl, nv, by linarith [nv'.1], by linarith [nv'.2]⟩

/-- A pure red in binary32. -/
example (w : World) : letI := Binary32.binary32
    ∃ q h' d v, Conv.dispatcher .greyDeep (some 0) ⟨w, [⟨.rgbDeep, .rgbDeep, [fin 1, fin 0, fin 0], 1, 1, 0, none⟩]⟩ = (ok (some q), h') ∧ h'.colors[q]? = some d ∧ d.comps = [fin v] ∧ |v - 1 / 3| ≤ 4e-7 := by
  letI := Binary32.binary32
  letI := Binary32.binary32_fine
  obtain ⟨q, h', d, v, a, b, c, -, e, -⟩ := C45_between_single_partial ⟨w, [⟨.rgbDeep, .rgbDeep, [fin 1, fin 0, fin 0], 1, 1, 0, none⟩]⟩ 0 _ rfl 1 0 0
    ⟨⟨rfl, rfl, rfl, rfl, rfl⟩, rfl, by norm_num, by norm_num, by norm_num, by norm_num, by norm_num, by norm_num⟩
  exact ⟨q, h', d, v, a, b, c, by simpa using e⟩

/-- **C45 violated** In binary32 the grey value of three equal channels need not lie between the channels. -/
theorem C45_between_violated (h : Heap) (i : Nat) (c : Color) (hi : h.colors[i]? = some c) (hc : IsRgb c (11184814 / 2 ^ 24) (11184814 / 2 ^ 24) (11184814 / 2 ^ 24)) : letI := Binary32.binary32
    ∃ q h' d v, Conv.dispatcher .greyDeep (some i) h = (ok (some q), h') ∧ h'.colors[q]? = some d ∧ d.comps = [fin v] ∧ ¬ (11184814 / 2 ^ 24 ≤ v ∧ v ≤ 11184814 / 2 ^ 24) := by
  letI := Binary32.binary32
  have ec : ((11184814 : ℤ) : ℝ) * 2 ^ (-24 : ℤ) = 11184814 / 2 ^ 24 := by norm_num
  obtain ⟨N, hN, n1, n2, n3⟩ := Binary32.third_of_three 11184814 (-24) (by norm_num) (by norm_num) (by norm_num) (by norm_num)
  rw [ec] at hN
  have N0 : (11184813 : ℤ) ≤ N := by rw [abs_le] at n1; omega
  have N0' : (11184813 : ℝ) ≤ N := by exact_mod_cast N0
  have N1 : (N : ℝ) ≤ 2 ^ 24 := by exact_mod_cast n2
  have p24 : (2 : ℝ) ^ (-24 : ℤ) = 1 / 2 ^ 24 := by norm_num
  have ca : c.alpha = c.malpha := by simp [Color.alpha, hc.col.cls, Color.scalesAlpha]
  have hv : Val.conv .rgbDeep .greyDeep h.world c = ok ⟨.greyDeep, .greyDeep, [fin (N * 2 ^ (-24 : ℤ))], c.malpha, 1, 0, c.space⟩ := by
    change Leaf.rgb_deep_to_grey_deep c = _
    have k0 : c.getComponent 0 = ok (fin (11184814 / 2 ^ 24)) := Conv.getComponent_of (by norm_num) (by rw [hc.comps]; rfl)
    have k1 : c.getComponent 1 = ok (fin (11184814 / 2 ^ 24)) := Conv.getComponent_of (by norm_num) (by rw [hc.comps]; rfl)
    have k2 : c.getComponent 2 = ok (fin (11184814 / 2 ^ 24)) := Conv.getComponent_of (by norm_num) (by rw [hc.comps]; rfl)
    have hcl : Color.clamp (fin ((N : ℝ) * 2 ^ (-24 : ℤ))) 1 0 = fin (N * 2 ^ (-24 : ℤ)) := by
      rw [one_def, zero_def, Color.clamp_fin, min_eq_left (by rw [p24]; norm_num at N1 ⊢; linarith), max_eq_left (by rw [p24]; norm_num; linarith)]
    simp only [Leaf.rgb_deep_to_grey_deep, k0, k1, k2, ok_bind, ca, hN, Color.construct_greyDeep, Color.mkGreyDeep, hcl]
  obtain ⟨q, h', a1, a2, -, -⟩ := dispatcher_val (s := .rgbDeep) (by decide) (by decide) (by decide) hc.col hi hv
  refine ⟨q, h', _, _, a1, a2, rfl, fun hh => ?_⟩
  have e := le_antisymm hh.2 hh.1
  rw [← ec] at e
  have := mul_right_cancel₀ (Binary32.two_pos (-24)).ne' e
  have : N = (11184814 : ℤ) := by exact_mod_cast this
  exact n3.mp this (by norm_num)

/-- There is such a colour. -/
example : IsRgb ⟨.rgbDeep, .rgbDeep, [fin (11184814 / 2 ^ 24), fin (11184814 / 2 ^ 24), fin (11184814 / 2 ^ 24)], 1, 1, 0, none⟩ (11184814 / 2 ^ 24) (11184814 / 2 ^ 24) (11184814 / 2 ^ 24) :=
  ⟨⟨rfl, rfl, rfl, rfl, rfl⟩, rfl, by norm_num, by norm_num, by norm_num, by norm_num, by norm_num, by norm_num⟩
