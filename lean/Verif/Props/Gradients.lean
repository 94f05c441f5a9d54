import Verif.Props.Calculation2

/-!
# C154: gradients

Mixtures of two colours with growing weights form a gradient.  Exact arithmetic; the eight classes whose mixtures are computed channel by channel (`Flat`).
-/

open Outcome Fl Prog ObjectSpec ConvSpec BlendSpec CalcSpec Calc Hue

section
variable [FloatModel] [ExactModel]

namespace Calc

/-- What `mixOf` gives for the eight classes. -/
theorem mixOf_yields {t : ColorType} (ht : Flat t) {a b : Color} (ha : Proper t a) (hb : Proper t b) {w : ℝ} (h0 : 0 ≤ w) (h1 : w ≤ 1) (ia : Bool) (wl : World) :
    Yields (mixOf t (fin w) ia) wl a b (mixed t w ia a b) := by
  have hW : Weight (fin w) := ⟨w, rfl, h0, h1⟩
  have hW' : Weight (fin (1 - w)) := ⟨1 - w, rfl, by linarith, by linarith⟩
  have hm : middle t = t := by rcases ht with rfl | rfl | rfl | rfl | rfl | rfl | rfl | rfl <;> rfl
  have ho : addOf t (fin w) (fin (1 - w)) ia = addOwn t (fin w) (fin (1 - w)) ia := by cases t <;> first | rfl | simp [middle] at hm
  rw [mixOf_pass (pass_of hW), one_sub_fin, ho]
  exact addOwn_yields (pass_of hW) (pass_of hW') (addVal_mixed ht ha hb h0 h1 ia)

omit [FloatModel] [ExactModel] in
theorem chan_mixed {t : ColorType} {w : ℝ} {ia : Bool} {a b : Color} {i : Nat} (hi : i < Color.count t) : chan (mixed t w ia a b) i = combR t w (chan a i) (chan b i) := by
  simp [chan, mixed, hi]

omit [FloatModel] [ExactModel] in
theorem opac_mixed {t : ColorType} {w : ℝ} {ia : Bool} {a b : Color} : opac (mixed t w ia a b) = if ia then combR t w (opac a) (opac b) else opac a := by
  simp [opac, mixed]

omit [FloatModel] [ExactModel] in
theorem combR_turn (t : ColorType) (w x y : ℝ) : combR t w x y = combR t (1 - w) y x := by
  unfold combR
  rw [sub_sub_cancel]
  split
  · rw [add_comm]
  · ring

omit [FloatModel] [ExactModel] in
theorem combR_section (t : ColorType) {u v w x y : ℝ} (u0 : 0 ≤ u) (u1 : u ≤ 1) (v0 : 0 ≤ v) (v1 : v ≤ 1) :
    combR t w (combR t u x y) (combR t v x y) = combR t (w * u + (1 - w) * v) x y := by
  unfold combR
  have p : ∀ {k : ℝ}, 0 ≤ k → k ≤ 1 → 0 ≤ k * x ^ 2 + (1 - k) * y ^ 2 := fun h0 h1 =>
    add_nonneg (mul_nonneg h0 (sq_nonneg _)) (mul_nonneg (by linarith) (sq_nonneg _))
  split
  · rw [Real.sq_sqrt (p u0 u1), Real.sq_sqrt (p v0 v1)]
    congr 1
    ring
  · ring

omit [FloatModel] [ExactModel] in
theorem combR_mono (t : ColorType) {u v x y : ℝ} (huv : u ≤ v) (hx : t = .rgbTrue ∨ t = .rgbDeep → 0 ≤ x ∧ 0 ≤ y) (h : y ≤ x) : combR t u x y ≤ combR t v x y := by
  unfold combR
  split
  · next ht =>
    obtain ⟨x0, y0⟩ := hx ht
    apply Real.sqrt_le_sqrt
    have : y ^ 2 ≤ x ^ 2 := by gcongr
    nlinarith
  · nlinarith

omit [FloatModel] [ExactModel] in
theorem combR_anti (t : ColorType) {u v x y : ℝ} (huv : u ≤ v) (hx : t = .rgbTrue ∨ t = .rgbDeep → 0 ≤ x ∧ 0 ≤ y) (h : x ≤ y) : combR t v x y ≤ combR t u x y := by
  unfold combR
  split
  · next ht =>
    obtain ⟨x0, y0⟩ := hx ht
    apply Real.sqrt_le_sqrt
    have : x ^ 2 ≤ y ^ 2 := by gcongr
    nlinarith
  · nlinarith

end Calc

/-- C154: a gradient can be read from either end: exchanging the colours and replacing the weight by one minus the weight gives the same channels, and the same colour if alpha is included
and both belong to one colour space. -/
theorem C154_turn (t : ColorType) (ht : Flat t) (a b : Color) (ha : Proper t a) (hb : Proper t b) (w : ℝ) (h0 : 0 ≤ w) (h1 : w ≤ 1) (ia : Bool) (wl : World) :
    ∃ r r', Yields (mixOf t (fin w) ia) wl a b r ∧ Yields (mixOf t (fin (1 - w)) ia) wl b a r' ∧ r.comps = r'.comps ∧ (ia = true → a.space = b.space → r = r') := by
  refine ⟨_, _, mixOf_yields ht ha hb h0 h1 ia wl, mixOf_yields ht hb ha (by linarith) (by linarith) ia wl, ?_, ?_⟩
  · simp only [mixed, combR_turn t w]
  · rintro rfl hs
    simp only [mixed, combR_turn t w, hs, if_true]

/-- C154: a gradient between two colours of a gradient is a part of it. -/
theorem C154_section (t : ColorType) (ht : Flat t) (a b : Color) (ha : Proper t a) (hb : Proper t b) (u v w : ℝ) (u0 : 0 ≤ u) (u1 : u ≤ 1) (v0 : 0 ≤ v) (v1 : v ≤ 1) (w0 : 0 ≤ w)
    (w1 : w ≤ 1) (ia : Bool) (wl : World) :
    ∃ p q r, Yields (mixOf t (fin u) ia) wl a b p ∧ Yields (mixOf t (fin v) ia) wl a b q ∧ Yields (mixOf t (fin w) ia) wl p q r ∧
      Yields (mixOf t (fin (w * u + (1 - w) * v)) ia) wl a b r := by
  have k0 : 0 ≤ w * u + (1 - w) * v := by have := mul_nonneg w0 u0; have := mul_nonneg (sub_nonneg.mpr w1) v0; linarith
  have k1 : w * u + (1 - w) * v ≤ 1 := by nlinarith
  refine ⟨_, _, _, mixOf_yields ht ha hb u0 u1 ia wl, mixOf_yields ht ha hb v0 v1 ia wl, mixOf_yields ht (mixed_proper ha hb u0 u1 ia) (mixed_proper ha hb v0 v1 ia) w0 w1 ia wl, ?_⟩
  have : mixed t w ia (mixed t u ia a b) (mixed t v ia a b) = mixed t (w * u + (1 - w) * v) ia a b := by
    rw [mixed, opac_mixed, opac_mixed]
    conv_rhs => rw [mixed]
    simp only [Color.mk.injEq, true_and]
    refine ⟨List.map_congr_left fun i hi => ?_, ?_, rfl⟩
    · rw [chan_mixed (by simpa using hi), chan_mixed (by simpa using hi), combR_section t u0 u1 v0 v1]
    · cases ia
      · rfl
      · simp only [if_true]
        rw [combR_section t u0 u1 v0 v1]
  rw [this]
  exact mixOf_yields ht ha hb k0 k1 ia wl

/-- C154: along a gradient every channel moves in one direction only, and so does the opacity. -/
theorem C154_steady (t : ColorType) (ht : Flat t) (a b : Color) (ha : Proper t a) (hb : Proper t b) (u v : ℝ) (u0 : 0 ≤ u) (huv : u ≤ v) (v1 : v ≤ 1) (ia : Bool) (wl : World) :
    ∃ p q, Yields (mixOf t (fin u) ia) wl a b p ∧ Yields (mixOf t (fin v) ia) wl a b q ∧
      (∀ i < Color.count t, (chan b i ≤ chan a i → chan p i ≤ chan q i) ∧ (chan a i ≤ chan b i → chan q i ≤ chan p i)) ∧
      (opac b ≤ opac a → opac p ≤ opac q) ∧ (opac a ≤ opac b → opac q ≤ opac p) := by
  refine ⟨_, _, mixOf_yields ht ha hb u0 (huv.trans v1) ia wl, mixOf_yields ht ha hb (u0.trans huv) v1 ia wl, fun i hi => ?_, ?_, ?_⟩
  · rw [chan_mixed hi, chan_mixed hi]
    have hn : t = .rgbTrue ∨ t = .rgbDeep → 0 ≤ chan a i ∧ 0 ≤ chan b i := fun h => ⟨nonneg_rgb ha hi h, nonneg_rgb hb hi h⟩
    exact ⟨combR_mono t huv hn, combR_anti t huv hn⟩
  all_goals
    have hn : t = .rgbTrue ∨ t = .rgbDeep → 0 ≤ opac a ∧ 0 ≤ opac b := fun _ => ⟨ha.opac_range.1, hb.opac_range.1⟩
    rw [opac_mixed, opac_mixed]
    intro h
    cases ia
    · exact le_rfl
    · first | exact combR_mono t huv hn h | exact combR_anti t huv hn h

/-- C154: the middle of a gradient of grey, CMYK, XYZ, xyY or CIELUV colours has the channels of the average of its ends, and is that average but for the opacity of CMYK averages
(`C67_violated`). -/
theorem C154_middle (t : ColorType) (ht : Flat t) (hr : t ≠ .rgbTrue ∧ t ≠ .rgbDeep) (a b : Color) (ha : Proper t a) (hb : Proper t b) (ia : Bool) (wl : World) :
    ∃ r r', Yields (mixOf t (fin (1 / 2)) ia) wl a b r ∧ Averages t ia [a, b] r' ∧ r.comps = r'.comps ∧ (t ≠ .cmyk ∨ ia = false → r = r') := by
  have hu : t ≠ .undefined := by rcases ht with rfl | rfl | rfl | rfl | rfl | rfl | rfl | rfl <;> simp
  obtain ⟨al, e, hal⟩ := average_value hu ia (first := a) (rest := [b]) (by simp [ha, hb])
  have hc : ∀ x y : ℝ, combR t (1 / 2) x y = (x + y) / 2 := fun x y => by
    rw [combR, if_neg (by rintro (h | h); exacts [hr.1 h, hr.2 h])]; ring
  have hm : ∀ i, mean [a, b] i = (chan a i + chan b i) / 2 := fun i => by simp [mean, total]
  refine ⟨_, _, mixOf_yields ht ha hb (by norm_num) (by norm_num) ia wl, averages_of (by simp) e, ?_, fun h => ?_⟩
  · simp only [mixed, hc, hm]
  · rw [hal h]
    simp only [mixed, hc, hm]
    congr 2
    simp [opacity]

/-- C154: for RGB colours the middle of the gradient is at least as bright as the average in every channel, and brighter wherever the two colours differ: `mix` averages the squares of the
channels, `average` the channels. -/
theorem C154_rgb_middle (t : ColorType) (ht : t = .rgbTrue ∨ t = .rgbDeep) (a b : Color) (ha : Proper t a) (hb : Proper t b) (ia : Bool) (wl : World) :
    ∃ r r', Yields (mixOf t (fin (1 / 2)) ia) wl a b r ∧ Averages t ia [a, b] r' ∧
      ∀ i < 3, chan r' i ≤ chan r i ∧ (chan a i ≠ chan b i → chan r' i < chan r i) := by
  have hF : Flat t := by rcases ht with rfl | rfl <;> simp [Flat]
  have hu : t ≠ .undefined := by rcases ht with rfl | rfl <;> simp
  have h3 : Color.count t = 3 := by rcases ht with rfl | rfl <;> rfl
  obtain ⟨r', e1, -, -, e2⟩ := C66_between t hu ia [a, b] (by simp) (by simp [ha, hb])
  refine ⟨_, r', mixOf_yields hF ha hb (by norm_num) (by norm_num) ia wl, e1, fun i hi => ?_⟩
  rw [← h3] at hi
  rw [(e2 i hi).2.1, chan_mixed hi, combR, if_pos ht]
  have x0 := nonneg_rgb ha hi ht
  have y0 := nonneg_rgb hb hi ht
  have hs : (List.map (chan · i) [a, b]).sum / ([a, b].length : ℝ) = (chan a i + chan b i) / 2 := by simp
  rw [hs]
  constructor
  · apply Real.le_sqrt_of_sq_le
    nlinarith [sq_nonneg (chan a i - chan b i)]
  · intro hne
    apply Real.lt_sqrt_of_sq_lt
    have : 0 < (chan a i - chan b i) ^ 2 := by have := sub_ne_zero.mpr hne; positivity
    nlinarith

/-- Cases: a gradient of greys and one of RGB colours, black to white. -/
theorem proper_grey (x : ℝ) (h : 0 ≤ x ∧ x ≤ 1) : Proper .greyDeep ⟨.greyDeep, .greyDeep, [fin x], fin 1, 1, 0, none⟩ := by
  refine ⟨⟨rfl, rfl, rfl, rfl, rfl⟩, fun i hi => ?_, ⟨1, rfl, by norm_num, le_rfl⟩⟩
  match i, hi with
  | 0, _ => exact ⟨x, rfl, by simpa [setterRange, channelRange] using h.1, by simpa [setterRange, channelRange] using h.2⟩
theorem proper_rgb (x : ℝ) (h : 0 ≤ x ∧ x ≤ 1) : Proper .rgbDeep ⟨.rgbDeep, .rgbDeep, [fin x, fin x, fin x], fin 1, 1, 0, none⟩ := by
  refine ⟨⟨rfl, rfl, rfl, rfl, rfl⟩, fun i hi => ?_, ⟨1, rfl, by norm_num, le_rfl⟩⟩
  match i, hi with
  | 0, _ => exact ⟨x, rfl, by simpa [setterRange, channelRange] using h.1, by simpa [setterRange, channelRange] using h.2⟩
  | 1, _ => exact ⟨x, rfl, by simpa [setterRange, channelRange] using h.1, by simpa [setterRange, channelRange] using h.2⟩
  | 2, _ => exact ⟨x, rfl, by simpa [setterRange, channelRange] using h.1, by simpa [setterRange, channelRange] using h.2⟩

example (wl : World) : ∃ a b r r', a ≠ b ∧ Yields (mixOf .greyDeep (fin 0.25) true) wl a b r ∧ Yields (mixOf .greyDeep (fin (1 - 0.25)) true) wl b a r' ∧ r = r' := by
  obtain ⟨r, r', h1, h2, -, h3⟩ := C154_turn .greyDeep (by simp [Flat]) _ _ (proper_grey 0 (by norm_num)) (proper_grey 1 (by norm_num)) 0.25 (by norm_num) (by norm_num) true wl
  exact ⟨_, _, r, r', by simp, h1, h2, h3 rfl rfl⟩
example (wl : World) : ∃ a b p q r, a ≠ b ∧ Yields (mixOf .rgbDeep (fin 0.25) true) wl a b p ∧ Yields (mixOf .rgbDeep (fin 0.75) true) wl a b q ∧ Yields (mixOf .rgbDeep (fin 0.5) true) wl p q r ∧
    Yields (mixOf .rgbDeep (fin (0.5 * 0.25 + (1 - 0.5) * 0.75)) true) wl a b r := by
  obtain ⟨p, q, r, h⟩ := C154_section .rgbDeep (by simp [Flat]) _ _ (proper_rgb 0 (by norm_num)) (proper_rgb 1 (by norm_num)) 0.25 0.75 0.5 (by norm_num) (by norm_num) (by norm_num)
    (by norm_num) (by norm_num) (by norm_num) true wl
  exact ⟨_, _, p, q, r, by simp, h⟩
example (wl : World) : ∃ a b p q, Yields (mixOf .rgbDeep (fin 0.25) false) wl a b p ∧ Yields (mixOf .rgbDeep (fin 0.75) false) wl a b q ∧ chan b 0 = 0 ∧ chan a 0 = 1 ∧ chan p 0 ≤ chan q 0 := by
  obtain ⟨p, q, h1, h2, h3, -⟩ := C154_steady .rgbDeep (by simp [Flat]) _ _ (proper_rgb 1 (by norm_num)) (proper_rgb 0 (by norm_num)) 0.25 0.75 (by norm_num) (by norm_num) (by norm_num) false wl
  exact ⟨_, _, p, q, h1, h2, rfl, rfl, (h3 0 (by simp [Color.count])).1 (show (0 : ℝ) ≤ 1 by norm_num)⟩
example (wl : World) : ∃ a b r, a ≠ b ∧ Yields (mixOf .greyDeep (fin (1 / 2)) true) wl a b r ∧ Averages .greyDeep true [a, b] r := by
  obtain ⟨r, r', h1, h2, -, h3⟩ := C154_middle .greyDeep (by simp [Flat]) (by simp) _ _ (proper_grey 0 (by norm_num)) (proper_grey 1 (by norm_num)) true wl
  obtain rfl := h3 (by simp)
  exact ⟨_, _, r, by simp, h1, h2⟩
example (wl : World) : ∃ a b r r', Yields (mixOf .rgbDeep (fin (1 / 2)) true) wl a b r ∧ Averages .rgbDeep true [a, b] r' ∧ chan r' 0 < chan r 0 := by
  obtain ⟨r, r', h1, h2, h3⟩ := C154_rgb_middle .rgbDeep (by simp) _ _ (proper_rgb 0 (by norm_num)) (proper_rgb 1 (by norm_num)) true wl
  exact ⟨_, _, r, r', h1, h2, (h3 0 (by norm_num)).2 (show (0 : ℝ) ≠ 1 by norm_num)⟩

end
