import Verif.CmcNear
import Verif.Props.SingleDistance

/-!
# CIE94 and CMC differences in single precision (C166)

Both formulas take the root of the squared CIE76 difference without its lightness and chroma parts.  In exact arithmetic that is never negative (C73); in single precision it may be.
-/

open Outcome Fl Prog ObjectSpec ConvSpec BlendSpec DistSpec CombineSpec

namespace Distance

theorem lab_range {c : ℝ} {i : ℕ} (h : (channelRange .lab i).1 ≤ c ∧ c ≤ (channelRange .lab i).2) : |c| ≤ 200 := by
  have : -128 ≤ c ∧ c ≤ 128 := by simpa [channelRange] using h
  rw [abs_le]; constructor <;> linarith

theorem published_sq (kL k1 k2 kC kH l a b l' a' b' : ℝ) : publishedCie94 kL k1 k2 kC kH l a b l' a' b' ^ 2 =
    (l - l') ^ 2 / kL ^ 2 + (chromaOf a b - chromaOf a' b') ^ 2 / (kC * (1 + k1 * chromaOf a b)) ^ 2 +
      ((a - a') ^ 2 + (b - b') ^ 2 - (chromaOf a b - chromaOf a' b') ^ 2) / (kH * (1 + k2 * chromaOf a b)) ^ 2 := by
  have hh : hueDiffSq l a b l' a' b' = (a - a') ^ 2 + (b - b') ^ 2 - (chromaOf a b - chromaOf a' b') ^ 2 := by
    simp only [hueDiffSq, e76sq]; ring
  have h0 : 0 ≤ hueDiffSq l a b l' a' b' := hh ▸ hue_part_nonneg a b a' b'
  simp only [publishedCie94]
  rw [Real.sq_sqrt (by positivity), div_pow, div_pow, hh]

end Distance

section
variable [FloatModel] [FineError] [SquareNear]

/-- C166: the CIE94 difference of two colours is either NaN or a number, and then its square is that of the published formula up to `1 / 80000` of the sum of the squared lightness difference
and the squared sum of the chromas. -/
theorem C166_cie94 (w : World) (p q : Color) (hp : Valid w .lab p) (hq : Valid w .lab q) (l a b l' a' b' kL k1 k2 kC kH : ℝ) (vp : View w p .lab l a b) (vq : View w q .lab l' a' b')
    (h0 : 1 ≤ kL ∧ kL ≤ 100) (h1 : 0 ≤ k1 ∧ k1 ≤ 1) (h2 : 0 ≤ k2 ∧ k2 ≤ 1) (h3 : 1 ≤ kC ∧ kC ≤ 100) (h4 : 1 ≤ kH ∧ kH ≤ 100) (hn : powf .nan 2 = .nan) :
    Measures (Distance.cielab_delta_e_cie94 (fin kL) (fin k1) (fin k2) (fin kC) (fin kH)) w p q .nan ∨
    ∃ d : ℝ, Measures (Distance.cielab_delta_e_cie94 (fin kL) (fin k1) (fin k2) (fin kC) (fin kH)) w p q (fin d) ∧ 0 ≤ d ∧
      |d ^ 2 - publishedCie94 kL k1 k2 kC kH l a b l' a' b' ^ 2| ≤ ((l - l') ^ 2 + (chromaOf a b + chromaOf a' b') ^ 2) / 80000 + 1 / 10 ^ 7 := by
  obtain ⟨l1, a1, b1, vp', r1, r2, r3⟩ := view_of_valid (by simp) rfl hp
  obtain ⟨rfl, rfl, rfl⟩ := view_unique (by simp) hp.def_ hp.col vp' vp
  obtain ⟨l2, a2, b2, vq', s1, s2, s3⟩ := view_of_valid (by simp) rfl hq
  obtain ⟨rfl, rfl, rfl⟩ := view_unique (by simp) hq.def_ hq.col vq' vq
  obtain ⟨p', ep, hp'⟩ := Distance.view_val (by simp) hp.def_ hp.col vp
  obtain ⟨q', eq, hq'⟩ := Distance.view_val (by simp) hq.def_ hq.col vq
  obtain ⟨v, -, hneg, hpos⟩ := Distance.cie94_near (C := chromaOf a1 b1) (C' := chromaOf a2 b2) hp' hq' (Distance.lab_range r1) (Distance.lab_range r2) (Distance.lab_range r3)
    (Distance.lab_range s1) (Distance.lab_range s2) (Distance.lab_range s3) rfl rfl h0 h1 h2 h3 h4
  by_cases hv : v < 0
  · exact .inl (Distance.between_measures hp.def_ hq.def_ (by simp) hp.col hq.col ep eq (hneg hv hn)).1
  · obtain ⟨d, ed, d0, nd⟩ := hpos (not_lt.mp hv)
    refine .inr ⟨d, (Distance.between_measures hp.def_ hq.def_ (by simp) hp.col hq.col ep eq ed).1, d0, ?_⟩
    rw [Distance.published_sq]
    refine nd.trans ?_
    have n1 := sq_nonneg (l1 - l2)
    have n2 := sq_nonneg (chromaOf a1 b1 + chromaOf a2 b2)
    norm_num
    linarith

/-- C166 for colours whose hues differ: if the hue difference is at least `1 / 447` of the sum of the chromas, the CIE94 difference is a number. -/
theorem C166_cie94_partial (w : World) (p q : Color) (hp : Valid w .lab p) (hq : Valid w .lab q) (l a b l' a' b' kL k1 k2 kC kH : ℝ) (vp : View w p .lab l a b) (vq : View w q .lab l' a' b')
    (h0 : 1 ≤ kL ∧ kL ≤ 100) (h1 : 0 ≤ k1 ∧ k1 ≤ 1) (h2 : 0 ≤ k2 ∧ k2 ≤ 1) (h3 : 1 ≤ kC ∧ kC ≤ 100) (h4 : 1 ≤ kH ∧ kH ≤ 100)
    (hh : (chromaOf a b + chromaOf a' b') ^ 2 / 200000 + 1 / 10 ^ 8 ≤ hueDiffSq l a b l' a' b') :
    ∃ d : ℝ, Measures (Distance.cielab_delta_e_cie94 (fin kL) (fin k1) (fin k2) (fin kC) (fin kH)) w p q (fin d) ∧ 0 ≤ d ∧
      |d ^ 2 - publishedCie94 kL k1 k2 kC kH l a b l' a' b' ^ 2| ≤ ((l - l') ^ 2 + (chromaOf a b + chromaOf a' b') ^ 2) / 80000 + 1 / 10 ^ 7 := by
  obtain ⟨l1, a1, b1, vp', r1, r2, r3⟩ := view_of_valid (by simp) rfl hp
  obtain ⟨rfl, rfl, rfl⟩ := view_unique (by simp) hp.def_ hp.col vp' vp
  obtain ⟨l2, a2, b2, vq', s1, s2, s3⟩ := view_of_valid (by simp) rfl hq
  obtain ⟨rfl, rfl, rfl⟩ := view_unique (by simp) hq.def_ hq.col vq' vq
  obtain ⟨p', ep, hp'⟩ := Distance.view_val (by simp) hp.def_ hp.col vp
  obtain ⟨q', eq, hq'⟩ := Distance.view_val (by simp) hq.def_ hq.col vq
  obtain ⟨v, nv, -, hpos⟩ := Distance.cie94_near (C := chromaOf a1 b1) (C' := chromaOf a2 b2) hp' hq' (Distance.lab_range r1) (Distance.lab_range r2) (Distance.lab_range r3)
    (Distance.lab_range s1) (Distance.lab_range s2) (Distance.lab_range s3) rfl rfl h0 h1 h2 h3 h4
  have n1 := sq_nonneg (l1 - l2)
  have n2 := sq_nonneg (chromaOf a1 b1 + chromaOf a2 b2)
  have hv : 0 ≤ v := by
    have e : hueDiffSq l1 a1 b1 l2 a2 b2 = (a1 - a2) ^ 2 + (b1 - b2) ^ 2 - (chromaOf a1 b1 - chromaOf a2 b2) ^ 2 := by
      simp only [hueDiffSq, e76sq]; ring
    rw [e] at hh
    have := (abs_le.mp nv).1
    norm_num at *
    linarith
  obtain ⟨d, ed, d0, nd⟩ := hpos hv
  refine ⟨d, (Distance.between_measures hp.def_ hq.def_ (by simp) hp.col hq.col ep eq ed).1, d0, ?_⟩
  rw [Distance.published_sq]
  refine nd.trans ?_
  norm_num
  linarith

end

namespace Binary32

/-- The root of 37 is rounded up. -/
theorem root37 : round32 (Real.sqrt 37) = .fin (12756478 / 2 ^ 21) := by
  have hp : (0 : ℝ) ≤ Real.sqrt 37 := Real.sqrt_nonneg _
  have lo : (127564775 / 10 : ℝ) / 2 ^ 21 < Real.sqrt 37 := Real.lt_sqrt_of_sq_lt (by norm_num)
  have hi : Real.sqrt 37 < 12756478 / 2 ^ 21 := by rw [Real.sqrt_lt' (by norm_num)]; norm_num
  have := round_eq (r := Real.sqrt 37) 12756478 (-21) (by norm_num) (by norm_num) (by rw [abs_of_nonneg hp]; norm_num at *; linarith) (by rw [abs_of_nonneg hp]; norm_num at *; linarith)
    (by rw [abs_lt]; constructor <;> (norm_num at *; linarith))
  rw [this]
  norm_num

/-- Its square is larger than 37. -/
theorem square37 : round32 ((12756478 / 2 ^ 21) ^ 2) = .fin (9699329 / 2 ^ 18) := by
  have := round_eq (r := ((12756478 : ℝ) / 2 ^ 21) ^ 2) 9699329 (-18) (by norm_num) (by norm_num) (by norm_num [abs_of_pos]) (by norm_num [abs_of_pos]) (by rw [abs_lt]; constructor <;> norm_num)
  rw [this]
  norm_num

/-- Whole numbers are exact. -/
theorem whole (n : ℤ) (h : |n| ≤ 2 ^ 24) : round32 n = .fin n := by
  have hr : |(n : ℝ)| ≤ 2 ^ 24 := by exact_mod_cast h
  have := round_exact n 0 h (by norm_num) (by simp only [zpow_zero, mul_one]; exact hr.trans_lt (by norm_num))
  simpa using this

/-- The hue difference of a grey and a colour with `a = 6` and `b = 1`. -/
theorem hue37 (s : ℝ) (hs : s = 1 ∨ s = -1) : letI := binary32
    ∀ c c' : Fl, c = fin 0 ∧ c' = fin (12756478 / 2 ^ 21) ∧ s = -1 ∨ c' = fin 0 ∧ c = fin (12756478 / 2 ^ 21) ∧ s = 1 →
      Fl.sqrt (powf (fin (s * 6)) 2 + powf (fin s) 2 - powf (c - c') 2) = .nan := by
  letI := binary32
  have h2 : (2 : Fl) = fin 2 := by simp
  intro c c' hc
  have hy : round32 (12756478 / 2 ^ 21) = fin (12756478 / 2 ^ 21) := by
    have := round_exact 12756478 (-21) (by norm_num) (by norm_num) (by norm_num [abs_of_pos])
    norm_num at *
    exact this
  have e36 : powf (fin (s * 6)) 2 = fin 36 := by
    rw [h2, powf_two, show (s * 6) ^ 2 = ((36 : ℤ) : ℝ) by rcases hs with rfl | rfl <;> norm_num, whole 36 (by norm_num)]
    norm_num
  have e1 : powf (fin s) 2 = fin 1 := by
    rw [h2, powf_two, show s ^ 2 = ((1 : ℤ) : ℝ) by rcases hs with rfl | rfl <;> norm_num, whole 1 (by norm_num)]
    norm_num
  have ed : powf (c - c') 2 = fin (9699329 / 2 ^ 18) := by
    rcases hc with ⟨rfl, rfl, -⟩ | ⟨rfl, rfl, -⟩
    · have : fin 0 - fin (12756478 / 2 ^ 21) = fin (-(12756478 / 2 ^ 21)) := (fin_sub _ _).trans (by rw [zero_sub]; exact round_neg hy)
      rw [this, h2, powf_two, neg_sq, square37]
    · have : fin (12756478 / 2 ^ 21) - fin 0 = fin (12756478 / 2 ^ 21) := (fin_sub _ _).trans (by rw [sub_zero]; exact hy)
      rw [this, h2, powf_two, square37]
  have e37 : fin 36 + fin 1 = fin 37 := by
    have := whole 37 (by norm_num)
    refine (fin_add _ _).trans ?_
    change round32 _ = _
    norm_num at *
    exact this
  have en : fin 37 - fin (9699329 / 2 ^ 18) = fin (-(1 / 2 ^ 18)) := by
    have := round_exact (-1) (-18) (by norm_num) (by norm_num) (by norm_num [abs_of_pos])
    refine (fin_sub _ _).trans ?_
    change round32 _ = _
    norm_num at *
    exact this
  rw [e36, e1, ed, e37, en]
  norm_num [Fl.sqrt]

end Binary32

section

/-- C166 fails: in binary32 the CIE94 and CMC differences of the grey (50, 0, 0) and the colour (50, 6, 1), in both directions and for all parameters, are NaN.  The chroma `sqrt(37)` is
rounded up, so the square of the chroma difference exceeds the sum of the squares of the differences of `a` and `b`. -/
theorem C166_violated (w : World) : letI := Binary32.binary32
    ∃ p q : Color, Color.construct .lab [fin 50, fin 0, fin 0] 1 none = ok p ∧ Color.construct .lab [fin 50, fin 6, fin 1] 1 none = ok q ∧
      (∀ kL k1 k2 kC kH : Fl, Measures (Distance.cielab_delta_e_cie94 kL k1 k2 kC kH) w p q .nan ∧ Measures (Distance.cielab_delta_e_cie94 kL k1 k2 kC kH) w q p .nan) ∧
      (∀ kl kc : Fl, Measures (Distance.cmc_delta_e_lc84 kl kc) w p q .nan ∧ Measures (Distance.cmc_delta_e_lc84 kl kc) w q p .nan) := by
  letI := Binary32.binary32
  obtain ⟨p, ep, -, hp, vp⟩ := exists_lab w 50 0 0 (by norm_num) (by norm_num) (by norm_num)
  obtain ⟨q, eq, -, hq, vq⟩ := exists_lab w 50 6 1 (by norm_num) (by norm_num) (by norm_num)
  have h2 : (2 : Fl) = fin 2 := by simp
  have hn : powf (.nan : Fl) 2 = .nan := rfl
  have w' := Binary32.whole
  have c0 : Distance.chroma (fin 0) (fin 0) = fin 0 := by
    have : powf (fin 0) 2 = fin 0 := by rw [h2, Binary32.powf_two]; norm_num [Binary32.round_zero]
    simp only [Distance.chroma, this, fin_add, add_zero, FloatModel.rnd_zero, Fl.sqrt, lt_irrefl, if_false, Real.sqrt_zero]
  have c1 : Distance.chroma (fin 6) (fin 1) = fin (12756478 / 2 ^ 21) := by
    have e36 : powf (fin 6) 2 = fin 36 := by
      rw [h2, Binary32.powf_two, show (6 : ℝ) ^ 2 = ((36 : ℤ) : ℝ) by norm_num, w' 36 (by norm_num)]; norm_num
    have e1 : powf (fin 1) 2 = fin 1 := by
      rw [h2, Binary32.powf_two, show (1 : ℝ) ^ 2 = ((1 : ℤ) : ℝ) by norm_num, w' 1 (by norm_num)]; norm_num
    have e37 : fin 36 + fin 1 = fin 37 := by
      have := w' 37 (by norm_num)
      refine (fin_add _ _).trans ?_
      change Binary32.round32 _ = _
      norm_num at *
      exact this
    rw [Distance.chroma, e36, e1, e37]
    have : ¬ (37 : ℝ) < 0 := by norm_num
    simp only [Fl.sqrt, this, if_false]
    exact Binary32.root37
  have sub : ∀ m n : ℤ, |m - n| ≤ 2 ^ 24 → fin (m : ℝ) - fin (n : ℝ) = fin ((m - n : ℤ) : ℝ) := by
    intro m n h
    refine (fin_sub _ _).trans ?_
    rw [← Int.cast_sub]
    exact w' _ h
  have s06 : fin 0 - fin 6 = fin (-1 * 6) := by have := sub 0 6 (by norm_num); norm_num at *; exact this
  have s01 : fin 0 - fin 1 = fin (-1) := by have := sub 0 1 (by norm_num); norm_num at *; exact this
  have s60 : fin 6 - fin 0 = fin (1 * 6) := by have := sub 6 0 (by norm_num); norm_num at *; exact this
  have s10 : fin 1 - fin 0 = fin 1 := by have := sub 1 0 (by norm_num); norm_num at *; exact this
  have hue := Binary32.hue37 (-1) (.inr rfl) (fin 0) (fin (12756478 / 2 ^ 21)) (.inl ⟨rfl, rfl, rfl⟩)
  have hue' := Binary32.hue37 1 (.inl rfl) (fin (12756478 / 2 ^ 21)) (fin 0) (.inr ⟨rfl, rfl, rfl⟩)
  have addn : ∀ x : Fl, x + .nan = .nan := fun x => by cases x <;> rfl
  refine ⟨p, q, ep, eq, fun kL k1 k2 kC kH => ⟨?_, ?_⟩, fun kl kc => ⟨?_, ?_⟩⟩
  · refine measures_of (by simp) hp hq vp vq fun p q hp hq => ?_
    obtain ⟨cls, ct, comps, al, mx, mn, sp⟩ := p
    obtain ⟨cls', ct', comps', al', mx', mn', sp'⟩ := q
    simp only at hp hq
    subst hp hq
    simp only [Distance.cie94, Conv.get3_0, Conv.get3_1, Conv.get3_2, ok_bind, c0, c1, s06, s01, hue, nan_div, hn, addn]
    rfl
  · refine measures_of (by simp) hq hp vq vp fun p q hp hq => ?_
    obtain ⟨cls, ct, comps, al, mx, mn, sp⟩ := p
    obtain ⟨cls', ct', comps', al', mx', mn', sp'⟩ := q
    simp only at hp hq
    subst hp hq
    simp only [Distance.cie94, Conv.get3_0, Conv.get3_1, Conv.get3_2, ok_bind, c0, c1, s60, s10, hue', nan_div, hn, addn]
    rfl
  · refine measures_of (by simp) hp hq vp vq fun p q hp hq => ?_
    obtain ⟨cls, ct, comps, al, mx, mn, sp⟩ := p
    obtain ⟨cls', ct', comps', al', mx', mn', sp'⟩ := q
    simp only at hp hq
    subst hp hq
    simp only [Distance.cmc, Conv.get3_0, Conv.get3_1, Conv.get3_2, ok_bind, c0, c1, s06, s01, hue, nan_div, hn, addn]
    rfl
  · refine measures_of (by simp) hq hp vq vp fun p q hp hq => ?_
    obtain ⟨cls, ct, comps, al, mx, mn, sp⟩ := p
    obtain ⟨cls', ct', comps', al', mx', mn', sp'⟩ := q
    simp only at hp hq
    subst hp hq
    simp only [Distance.cmc, Conv.get3_0, Conv.get3_1, Conv.get3_2, ok_bind, c0, c1, s60, s10, hue', nan_div, hn, addn]
    rfl

/-- C166: in binary32 the CIE94 difference of two colours with the same LAB components is exactly zero. -/
theorem C166_zero (w : World) (p q : Color) : letI := Binary32.binary32
    ∀ (_ : Valid w .lab p) (_ : Valid w .lab q) (_ : SameView w .lab p q) (kL k1 k2 kC kH : ℝ) (_ : 1 ≤ kL ∧ kL ≤ 100) (_ : 0 ≤ k1 ∧ k1 ≤ 1) (_ : 0 ≤ k2 ∧ k2 ≤ 1) (_ : 1 ≤ kC ∧ kC ≤ 100)
      (_ : 1 ≤ kH ∧ kH ≤ 100), Measures (Distance.cielab_delta_e_cie94 (fin kL) (fin k1) (fin k2) (fin kC) (fin kH)) w p q (fin 0) := by
  letI := Binary32.binary32
  haveI := Binary32.binary32_fine
  haveI := Binary32.binary32_square
  intro hp hq hs kL k1 k2 kC kH h0 h1 h2 h3 h4
  obtain ⟨l, a, b, vp, r1, r2, r3⟩ := view_of_valid (by simp) rfl hp
  have vq := (hs _ _ _).mp vp
  refine measures_of (by simp) hp hq vp vq fun p q hp hq => ?_
  have big : ∀ {x : ℝ} {i : ℕ}, (channelRange .lab i).1 ≤ x ∧ x ≤ (channelRange .lab i).2 → |x| ≤ 1000 := fun h => (Distance.lab_range h).trans (by norm_num)
  have c1 := Distance.chroma_near (big r2) (big r3)
  have hC0 := Real.sqrt_nonneg (a ^ 2 + b ^ 2)
  have hC1 : Real.sqrt (a ^ 2 + b ^ 2) ≤ 1000 := by
    rw [Real.sqrt_le_left (by norm_num)]
    have e1 : a ^ 2 ≤ 200 ^ 2 := by rw [← sq_abs]; gcongr; exact Distance.lab_range r2
    have e2 : b ^ 2 ≤ 200 ^ 2 := by rw [← sq_abs]; gcongr; exact Distance.lab_range r3
    linarith
  obtain ⟨sC, esC, nsC⟩ := Distance.scale_near c1 hC0 hC1 h1.1 h1.2 h3.1 h3.2
  obtain ⟨sH, esH, nsH⟩ := Distance.scale_near c1 hC0 hC1 h2.1 h2.2 h4.1 h4.2
  have pos : ∀ {s m k C : ℝ}, 0 ≤ k → 0 ≤ C → 1 ≤ m → |s - m * (1 + k * C)| ≤ m * (1 + k * C) * (12 / 2 ^ 23) → s ≠ 0 := by
    intro s m k C hk hC hm hn h0
    have : 1 ≤ m * (1 + k * C) := by nlinarith [mul_nonneg hk hC]
    rw [h0, abs_le] at hn
    norm_num at *
    linarith
  obtain ⟨sL, esL, nsL⟩ := FineError.rnd_near (kL * 1) (by rw [mul_one, abs_of_nonneg (by linarith)]; exact h0.2.trans (by norm_num))
  have hsL : sL ≠ 0 := by
    rintro rfl
    rw [mul_one, zero_sub, abs_neg, abs_of_nonneg (by linarith : 0 ≤ kL)] at nsL
    have := h0.1
    norm_num at *
    linarith
  obtain ⟨c, ec, -⟩ := c1
  have z : ∀ u : ℝ, fin u - fin u = fin 0 := fun u => (fin_sub u u).trans (by rw [sub_self]; exact FloatModel.rnd_zero)
  have d : ∀ u : ℝ, u ≠ 0 → fin 0 / fin u = fin 0 := fun u hu => (fin_div 0 u hu).trans (by rw [zero_div]; exact FloatModel.rnd_zero)
  have p0 : powf (fin 0) 2 = fin 0 := by
    have h2 : (2 : Fl) = fin 2 := by simp
    rw [h2, Binary32.powf_two]; norm_num [Binary32.round_zero]
  have a0 : fin 0 + fin 0 = fin 0 := (fin_add 0 0).trans (by rw [add_zero]; exact FloatModel.rnd_zero)
  have q0 : Fl.sqrt (fin 0) = fin 0 := by simp [Fl.sqrt, FloatModel.rnd_zero]
  have eL : fin kL * 1 = fin sL := by rw [one_def, fin_mul, esL]
  have hCz : sC ≠ 0 := pos h1.1 hC0 h3.1 nsC
  have hHz : sH ≠ 0 := pos h2.1 hC0 h4.1 nsH
  obtain ⟨cls, ct, comps, al, mx, mn, sp⟩ := p
  obtain ⟨cls', ct', comps', al', mx', mn', sp'⟩ := q
  simp only at hp hq
  subst hp hq
  simp only [Distance.cie94, Conv.get3_0, Conv.get3_1, Conv.get3_2, ok_bind, eL, esC, esH]
  rw [ec]
  simp only [z, p0, a0, q0, d _ hsL, d _ hCz, d _ hHz]

/-- C166: in binary32 the CMC difference of two valid colours is a number that is not negative, or NaN. -/
theorem C166_cmc (w : World) (p q : Color) (kl kc : ℝ) (h0 : 1 ≤ kl ∧ kl ≤ 100) (h1 : 1 ≤ kc ∧ kc ≤ 100) : letI := Binary32.binary32
    ∀ (_ : Valid w .lab p) (_ : Valid w .lab q), Measures (Distance.cmc_delta_e_lc84 (fin kl) (fin kc)) w p q .nan ∨ ∃ d : ℝ, Measures (Distance.cmc_delta_e_lc84 (fin kl) (fin kc)) w p q (fin d) ∧ 0 ≤ d := by
  letI := Binary32.binary32
  intro hp hq
  obtain ⟨l, a, b, vp, r1, r2, r3⟩ := view_of_valid (by simp) rfl hp
  obtain ⟨l', a', b', vq, s1, s2, s3⟩ := view_of_valid (by simp) rfl hq
  obtain ⟨p', ep, hp'⟩ := Distance.view_val (by simp) hp.def_ hp.col vp
  obtain ⟨q', eq, hq'⟩ := Distance.view_val (by simp) hq.def_ hq.col vq
  obtain ⟨v, -, hneg, hpos⟩ := CmcNear.Binary.cmc_number hp' hq' (Distance.lab_range r1) (Distance.lab_range r2) (Distance.lab_range r3) (Distance.lab_range s1) (Distance.lab_range s2)
    (Distance.lab_range s3) rfl rfl h0 h1
  by_cases hv : v < 0
  · exact .inl (Distance.between_measures hp.def_ hq.def_ (by simp) hp.col hq.col ep eq (hneg hv)).1
  · obtain ⟨d, ed, d0⟩ := hpos (not_lt.mp hv)
    exact .inr ⟨d, (Distance.between_measures hp.def_ hq.def_ (by simp) hp.col hq.col ep eq ed).1, d0⟩

/-- C166 for colours whose hues differ: if the hue difference is at least `1 / 447` of the sum of the chromas, the CMC difference is a number in binary32. -/
theorem C166_cmc_partial (w : World) (p q : Color) (l a b l' a' b' kl kc : ℝ) (h0 : 1 ≤ kl ∧ kl ≤ 100) (h1 : 1 ≤ kc ∧ kc ≤ 100) : letI := Binary32.binary32
    ∀ (_ : Valid w .lab p) (_ : Valid w .lab q) (_ : View w p .lab l a b) (_ : View w q .lab l' a' b') (_ : (chromaOf a b + chromaOf a' b') ^ 2 / 200000 + 1 / 10 ^ 8 ≤ hueDiffSq l a b l' a' b'),
      ∃ d : ℝ, Measures (Distance.cmc_delta_e_lc84 (fin kl) (fin kc)) w p q (fin d) ∧ 0 ≤ d := by
  letI := Binary32.binary32
  intro hp hq vp vq hh
  obtain ⟨l1, a1, b1, vp', r1, r2, r3⟩ := view_of_valid (by simp) rfl hp
  obtain ⟨rfl, rfl, rfl⟩ := view_unique (by simp) hp.def_ hp.col vp' vp
  obtain ⟨l2, a2, b2, vq', s1, s2, s3⟩ := view_of_valid (by simp) rfl hq
  obtain ⟨rfl, rfl, rfl⟩ := view_unique (by simp) hq.def_ hq.col vq' vq
  obtain ⟨p', ep, hp'⟩ := Distance.view_val (by simp) hp.def_ hp.col vp
  obtain ⟨q', eq, hq'⟩ := Distance.view_val (by simp) hq.def_ hq.col vq
  obtain ⟨v, nv, -, hpos⟩ := CmcNear.Binary.cmc_number (C := chromaOf a1 b1) (C' := chromaOf a2 b2) hp' hq' (Distance.lab_range r1) (Distance.lab_range r2) (Distance.lab_range r3) (Distance.lab_range s1)
    (Distance.lab_range s2) (Distance.lab_range s3) rfl rfl h0 h1
  have n2 := sq_nonneg (chromaOf a1 b1 + chromaOf a2 b2)
  have hv : 0 ≤ v := by
    have e : hueDiffSq l1 a1 b1 l2 a2 b2 = (a1 - a2) ^ 2 + (b1 - b2) ^ 2 - (chromaOf a1 b1 - chromaOf a2 b2) ^ 2 := by
      simp only [hueDiffSq, e76sq]; ring
    rw [e] at hh
    have := (abs_le.mp nv).1
    norm_num at *
    linarith
  obtain ⟨d, ed, d0⟩ := hpos hv
  exact ⟨d, (Distance.between_measures hp.def_ hq.def_ (by simp) hp.col hq.col ep eq ed).1, d0⟩

/-- C166: in binary32 the CMC difference of two colours with the same LAB components is exactly zero. -/
theorem C166_cmc_zero (w : World) (p q : Color) (kl kc : ℝ) (h0 : 1 ≤ kl ∧ kl ≤ 100) (h1 : 1 ≤ kc ∧ kc ≤ 100) : letI := Binary32.binary32
    ∀ (_ : Valid w .lab p) (_ : Valid w .lab q) (_ : SameView w .lab p q), Measures (Distance.cmc_delta_e_lc84 (fin kl) (fin kc)) w p q (fin 0) := by
  letI := Binary32.binary32
  intro hp hq hs
  obtain ⟨l, a, b, vp, r1, r2, r3⟩ := view_of_valid (by simp) rfl hp
  exact measures_of (by simp) hp hq vp ((hs _ _ _).mp vp) fun p q hp hq => CmcNear.Binary.cmc_zero hp hq (Distance.lab_range r1) (Distance.lab_range r2) (Distance.lab_range r3) h0 h1

/-! Cases that meet the hypotheses -/

/-- The CMC difference of two colours at a right angle is a number, with the usual factors 2 and 1. -/
example (w : World) : letI := Binary32.binary32
    ∃ p q : Color, Color.construct .lab [fin 50, fin 30, fin 40] 1 none = ok p ∧ Color.construct .lab [fin 60, fin (-40), fin 30] 1 none = ok q ∧
      ∃ d : ℝ, Measures (Distance.cmc_delta_e_lc84 (fin 2) (fin 1)) w p q (fin d) ∧ 0 ≤ d := by
  letI := Binary32.binary32
  obtain ⟨p, ep, -, hp, vp⟩ := exists_lab w 50 30 40 (by norm_num) (by norm_num) (by norm_num)
  obtain ⟨q, eq, -, hq, vq⟩ := exists_lab w 60 (-40) 30 (by norm_num) (by norm_num) (by norm_num)
  have k1 : chromaOf 30 40 = 50 := by
    rw [chromaOf, show (30 : ℝ) ^ 2 + 40 ^ 2 = 50 ^ 2 by norm_num]; exact Real.sqrt_sq (by norm_num)
  have k2 : chromaOf (-40) 30 = 50 := by
    rw [chromaOf, show (-40 : ℝ) ^ 2 + 30 ^ 2 = 50 ^ 2 by norm_num]; exact Real.sqrt_sq (by norm_num)
  exact ⟨p, q, ep, eq, C166_cmc_partial w p q _ _ _ _ _ _ 2 1 (by norm_num) (by norm_num) hp hq vp vq (by norm_num [hueDiffSq, e76sq, k1, k2])⟩

/-- Two colours at a right angle, with factors that are `float` numbers; and binary32 meets the assumption on `powf`. -/
example (w : World) : letI := Binary32.binary32
    powf (.nan : Fl) 2 = .nan ∧ ∃ p q : Color, Color.construct .lab [fin 50, fin 30, fin 40] 1 none = ok p ∧ Color.construct .lab [fin 60, fin (-40), fin 30] 1 none = ok q ∧
      ∃ d : ℝ, Measures (Distance.cielab_delta_e_cie94 (fin 1) (fin (1 / 16)) (fin (1 / 64)) (fin 1) (fin 1)) w p q (fin d) ∧
        |d ^ 2 - (100 + 5000 / (1 + 50 / 64) ^ 2)| ≤ 1 / 7 := by
  letI := Binary32.binary32
  haveI := Binary32.binary32_fine
  haveI := Binary32.binary32_square
  refine ⟨rfl, ?_⟩
  obtain ⟨p, ep, -, hp, vp⟩ := exists_lab w 50 30 40 (by norm_num) (by norm_num) (by norm_num)
  obtain ⟨q, eq, -, hq, vq⟩ := exists_lab w 60 (-40) 30 (by norm_num) (by norm_num) (by norm_num)
  have k1 : chromaOf 30 40 = 50 := by
    rw [chromaOf, show (30 : ℝ) ^ 2 + 40 ^ 2 = 50 ^ 2 by norm_num]; exact Real.sqrt_sq (by norm_num)
  have k2 : chromaOf (-40) 30 = 50 := by
    rw [chromaOf, show (-40 : ℝ) ^ 2 + 30 ^ 2 = 50 ^ 2 by norm_num]; exact Real.sqrt_sq (by norm_num)
  obtain ⟨d, m, -, n⟩ := C166_cie94_partial w p q hp hq _ _ _ _ _ _ 1 (1 / 16) (1 / 64) 1 1 vp vq (by norm_num) (by norm_num) (by norm_num) (by norm_num) (by norm_num)
    (by norm_num [hueDiffSq, e76sq, k1, k2])
  refine ⟨p, q, ep, eq, d, m, ?_⟩
  rw [Distance.published_sq, k1, k2] at n
  norm_num at n ⊢
  exact n.trans (by norm_num)

end
