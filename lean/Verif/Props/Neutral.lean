import Verif.Props.Spaces2
import Verif.Props.Homes

/-!
# C142, C143: neutral colours stay neutral, and brighter colours stay brighter, in every colour space
-/

open Outcome Fl Prog ObjectSpec ConvSpec BlendSpec FormulaSpec Formula RouteSpec Hue

section
variable [FloatModel]

/-- Two conversions in a row, along a path of the code. -/
theorem converts_chain {s m t : ColorType} {w : World} {c d e : Color} (hs : s ≠ .undefined) (hm : m ≠ .undefined) (ht : t ≠ .undefined) (hsm : s ≠ m) (hmt : m ≠ t) (hst : s ≠ t)
    (hp : (s, t) ∈ Val.passes m) (hc : IsColor s c) (hd : IsColor m d) (h1 : Converts w c m d) (h2 : Converts w d t e) : Converts w c t e := by
  rw [converts_iff hs hm hc] at h1
  rw [converts_iff hm ht hd] at h2
  rw [converts_iff hs ht hc]
  have := Val.cut_all m w c (s, t) hp
  simp only [Val.to] at h1 h2 ⊢
  rw [if_neg hsm] at h1
  rw [if_neg hmt] at h2
  rw [if_neg hst, this, h1, ok_bind]
  exact h2

/-- A conversion has only one result. -/
theorem converts_unique {w : World} {c d d' : Color} {t : ColorType} {xs ys : List ℝ} (hd : Converts w c t d) (hi : Is t d xs) (hd' : Converts w c t d') (hi' : Is t d' ys) : xs = ys := by
  obtain ⟨q, g, e1, e2⟩ := hd ⟨w, [c]⟩ 0 rfl rfl
  obtain ⟨q', g', e1', e2'⟩ := hd' ⟨w, [c]⟩ 0 rfl rfl
  rw [e1] at e1'
  simp only [Prod.mk.injEq, ok_inj, Option.some.injEq] at e1'
  obtain ⟨rfl, rfl⟩ := e1'
  rw [e2] at e2'
  obtain rfl := Option.some.inj e2'
  have := hi.comps.symm.trans hi'.comps
  exact List.map_injective_iff.mpr (fun a b hab => by simpa using hab) this

theorem gives_unique {w : World} {c : Color} {t : ColorType} {xs ys : List ℝ} (h : FormulaSpec.Gives w c t xs) (h' : FormulaSpec.Gives w c t ys) : xs = ys := by
  obtain ⟨d, hd, hi, -⟩ := h
  obtain ⟨d', hd', hi', -⟩ := h'
  exact converts_unique hd hi hd' hi'

end

section
variable [FloatModel] [ExactModel]

/-! ## C142: greys -/

theorem top_grey (v : ℝ) : top v v v = v ∧ bot v v v = v := by simp [top, bot]

/-- C142: a grey RGB colour has hue 0, saturation (or chroma) 0 and its grey value as value, lightness, luma and intensity; unless it is black it takes black ink only. -/
theorem C142_from_rgb (w : World) (c : Color) (v : ℝ) (h : IsRgb c v v v) :
    Gives w c .hsv [0, 0, v] ∧ Gives w c .hsl [0, 0, v] ∧ Gives w c .hcy [0, 0, v] ∧ Gives w c .hsi [0, 0, v] ∧ Gives w c .greyDeep [v] ∧
    (v ≠ 0 → Gives w c .cmyk [0, 0, 0, 1 - v]) := by
  obtain ⟨t, b⟩ := top_grey v
  have z : min (0 : ℝ) 359 = 0 := by norm_num
  obtain ⟨H1, u1, g1⟩ := C104_to_hsv w c v v v h
  obtain ⟨H2, u2, g2⟩ := C105_to_hsl w c v v v h
  obtain ⟨H3, u3, g3⟩ := C106_to_hcy w c v v v h
  obtain ⟨H4, u4, g4⟩ := C107_to_hsi w c v v v h
  rw [hueOf_unique u1 (hueOf_grey v), t, b, z, sub_self, zero_div, ite_self] at g1
  rw [hueOf_unique u2 (hueOf_grey v), t, b, z, if_pos rfl, show lightness v v v = v by rw [lightness, t, b]; ring] at g2
  rw [hueOf_unique u3 (hueOf_grey v), t, b, z, sub_self, show luma v v v = v by rw [luma]; ring] at g3
  have e4 : intensity v v v = v := by rw [intensity]; ring
  rw [hueOf_unique u4 (hueOf_grey v), b, z, e4] at g4
  refine ⟨g1, g2, g3, ?_, ?_, fun hv => ?_⟩
  · by_cases hv : v = 0
    · rwa [if_pos hv] at g4
    · rwa [if_neg hv, div_self hv, sub_self] at g4
  · have := C109_grey_deep w c v v v h
    rwa [show (v + v + v) / 3 = v by ring] at this
  · have := C108_to_cmyk w c v v v h (by rwa [t])
    rwa [t, div_self hv, sub_self] at this

/-- C142: only greys do. An RGB colour without saturation in HSV, HSL or HSI, or without chroma in HCY, has three equal channels. -/
theorem C142_only (w : World) (c : Color) (r g b : ℝ) (h : IsRgb c r g b) (x y : ℝ)
    (hh : Gives w c .hsv [x, 0, y] ∨ Gives w c .hsl [x, 0, y] ∨ Gives w c .hcy [x, 0, y] ∨ Gives w c .hsi [x, 0, y]) : r = g ∧ g = b := by
  have hb0 : 0 ≤ bot r g b := le_min (le_min h.r0 h.g0) h.b0
  have close : top r g b = bot r g b → r = g ∧ g = b := by
    intro e
    have h1 : r ≤ top r g b := (le_max_left _ _).trans (le_max_left _ _)
    have h2 : g ≤ top r g b := (le_max_right _ _).trans (le_max_left _ _)
    have h3 : b ≤ top r g b := le_max_right _ _
    have h4 : bot r g b ≤ r := (min_le_left _ _).trans (min_le_left _ _)
    have h5 : bot r g b ≤ g := (min_le_left _ _).trans (min_le_right _ _)
    have h6 : bot r g b ≤ b := min_le_right _ _
    constructor <;> linarith
  have hle : bot r g b ≤ top r g b := (min_le_right _ _).trans (le_max_right _ _)
  have ht1 : top r g b ≤ 1 := max_le (max_le h.r1 h.g1) h.b1
  apply close
  rcases hh with hh | hh | hh | hh
  · obtain ⟨H, -, k⟩ := C104_to_hsv w c r g b h
    have := gives_unique hh k
    simp only [List.cons.injEq] at this
    obtain ⟨-, e, -⟩ := this
    by_cases hz : top r g b = 0
    · linarith
    · rw [if_neg hz, eq_comm, div_eq_zero_iff] at e
      rcases e with e | e
      · linarith
      · exact absurd e hz
  · obtain ⟨H, -, k⟩ := C105_to_hsl w c r g b h
    have := gives_unique hh k
    simp only [List.cons.injEq] at this
    obtain ⟨-, e, -⟩ := this
    by_contra hz
    rw [if_neg hz, eq_comm, div_eq_zero_iff] at e
    rcases e with e | e
    · exact hz (by linarith)
    · have hl : |2 * lightness r g b - 1| < 1 := by
        unfold lightness
        have : bot r g b < top r g b := lt_of_le_of_ne hle (Ne.symm hz)
        rw [abs_lt]; constructor <;> linarith
      linarith
  · obtain ⟨H, -, k⟩ := C106_to_hcy w c r g b h
    have := gives_unique hh k
    simp only [List.cons.injEq] at this
    linarith [this.2.1]
  · obtain ⟨H, -, k⟩ := C107_to_hsi w c r g b h
    have := gives_unique hh k
    simp only [List.cons.injEq] at this
    obtain ⟨-, e, -⟩ := this
    have h4 : bot r g b ≤ r := (min_le_left _ _).trans (min_le_left _ _)
    have h5 : bot r g b ≤ g := (min_le_left _ _).trans (min_le_right _ _)
    have h6 : bot r g b ≤ b := min_le_right _ _
    have htop : top r g b = r ∨ top r g b = g ∨ top r g b = b := by
      unfold top
      rcases max_choice (max r g) b with q | q
      · rw [q]
        rcases max_choice r g with q' | q'
        · exact Or.inl q'
        · exact Or.inr (Or.inl q')
      · exact Or.inr (Or.inr q)
    by_cases hz : intensity r g b = 0
    · unfold intensity at hz
      have := h.r0; have := h.g0; have := h.b0
      rcases htop with q | q | q <;> linarith
    · rw [if_neg hz, eq_comm, sub_eq_zero, eq_comm, div_eq_one_iff_eq hz] at e
      unfold intensity at e
      rcases htop with q | q | q <;> linarith

/-- C142: back to RGB. A colour without saturation or chroma is grey, whatever its hue says; so is equal amounts of the three inks. -/
theorem C142_to_rgb (w : World) (c : Color) (h v : ℝ) (h0 : 0 ≤ h) (h1 : h ≤ 360) (v0 : 0 ≤ v) (v1 : v ≤ 1) :
    (Is .hsv c [h, 0, v] → Gives w c .rgbDeep [v, v, v]) ∧ (0 < v → Is .hsl c [h, 0, v] → Gives w c .rgbDeep [v, v, v]) ∧ (Is .hcy c [h, 0, v] → Gives w c .rgbDeep [v, v, v]) ∧
    (Is .hsi c [h, 0, v] → Gives w c .rgbDeep [v, v, v]) ∧
    (∀ x, 0 ≤ x → x ≤ 1 → Is .cmyk c [x, x, x, 1 - v] → Gives w c .rgbDeep [(1 - x) * v, (1 - x) * v, (1 - x) * v]) := by
  refine ⟨fun hc => ?_, fun hv hc => ?_, fun hc => ?_, fun hc => C107_grey w c h v hc v0 v1, fun x x0 x1 hc => ?_⟩
  · simpa using C104_from_hsv w c h 0 v hc h0 h1 le_rfl zero_le_one v0 v1
  · simpa using C105_from_hsl w c h 0 v hc h0 h1 le_rfl zero_le_one hv v1
  · simpa [clip, v0, v1] using C106_from_hcy w c h 0 v hc h0 h1
  · simpa using C108_from_cmyk w c x x x (1 - v) hc ⟨x0, x1⟩ ⟨x0, x1⟩ ⟨x0, x1⟩ ⟨by linarith, by linarith⟩

/-- C142, violated: black in CMYK takes all four inks at once. -/
theorem C142_violated (w : World) (c : Color) (h : IsRgb c 0 0 0) : Gives w c .cmyk [1, 1, 1, 1] := C108_black w c h

/- A case of C142. -/
example (w : World) : Gives w (rgbOf 0.5 0.5 0.5 1 none) .hsl [0, 0, 0.5] := (C142_from_rgb w _ 0.5 (isRgb_rgbOf _ _ (by norm_num))).2.1

/-! ## C142: LAB -/

omit [FloatModel] [ExactModel] in
theorem mixed_const (P : Matrix (Fin 3) (Fin 3) ℝ) (u k : Fin 3 → ℝ) (hk : P.mulVec k = u) (l : ℝ) (i : Fin 3) : mixed P k (fun _ => l) i = u i * l := by
  rw [← hk, mixed, Matrix.mulVec, dotProduct, Finset.sum_mul]

omit [FloatModel] [ExactModel] in
theorem labF_pos {t : ℝ} (ht : 0 ≤ t) : 4 / 29 ≤ labF t := by
  rcases labF_cases ht with h | h
  · linarith [h.1]
  · exact h.1

omit [FloatModel] [ExactModel] in
theorem labF_one_le {t : ℝ} (ht : 0 ≤ t) (h1 : t ≤ 1) : labF t ≤ 1 := by
  rcases labF_cases ht with h | h
  · by_contra hn
    have := pow_lt_pow_left₀ (not_le.mp hn) zero_le_one (by norm_num : (3 : ℕ) ≠ 0)
    rw [h.2.1] at this
    linarith
  · linarith [h.2.1]

/-- C142: the LAB values of a grey of a colour space have a = b = 0; the lightness belongs to the linearised grey value `l`. -/
theorem C142_to_lab (w : World) (c : Color) (a : ℝ) (ha : c.malpha = fin a) (a0 : 0 ≤ a) (a1 : a ≤ 1) (v : ℝ) (h : IsRgb c v v v) (s m : Nat) (hs : c.space = some s)
    (hm : (w.spaces s).gamma = some m) (P : Matrix (Fin 3) (Fin 3) ℝ) (u k : Fin 3 → ℝ) (hreach : SpaceReach w.whites (w.spaces s)) (hr : SpaceDef.Regular w.whites (w.spaces s) P u)
    (hk : P.mulVec k = u) (hu : ∀ i, 0 < u i ∧ u i ≤ 100) (l : ℝ) (hl : 0 ≤ l ∧ l ≤ 1) (e : (w.gammas m).inverse w.parts (fin v) = fin l) :
    GivesWith w c .lab [116 * labF l - 16, 0, 0] a := by
  obtain ⟨d, hcd, hd, hal, hsp⟩ := C112_to_xyz w c v v v h s m hs hm P u k (fun _ => l) hreach hr hk (fun _ => hl) e e e
  simp only [mixed_const P u k hk] at hd
  have nn : ∀ i, 0 ≤ u i * l := fun i => mul_nonneg (hu i).1.le hl.1
  have le : ∀ i, u i * l ≤ 100 := fun i => (mul_le_of_le_one_right (hu i).1.le hl.2).trans (hu i).2
  rw [limit_of (nn 0) (le 0), limit_of (nn 1) (le 1), limit_of (nn 2) (le 2)] at hd
  have hda : d.malpha = fin a := by
    rw [show d.alpha = d.malpha from by rw [Color.alpha, hd.col.cls]; rfl, show c.alpha = c.malpha from by rw [Color.alpha, h.col.cls]; rfl] at hal
    rw [hal, ha]
  have hwh : HasWhite w d.space (u 0) (u 1) (u 2) := by
    obtain ⟨p, hp, ht⟩ := hr.white
    exact ⟨s, p, hsp.trans hs, hp, ht⟩
  obtain ⟨q, hq, hq1, hq2, hq3⟩ := C111_to_lab w d a hda a0 a1 _ _ _ hd (nn 0) (nn 1) (nn 2) _ _ _ hwh (hu 0).1 (hu 1).1 (hu 2).1
  have dv : ∀ i, u i * l / u i = l := fun i => by rw [mul_comm, mul_div_assoc, div_self (hu i).1.ne', mul_one]
  have f0 := labF_pos hl.1
  have f1 := labF_one_le hl.1 hl.2
  rw [dv, dv, dv, sub_self, mul_zero, mul_zero, limit_of (by linarith) (by linarith), limit_of (by norm_num) (by norm_num)] at hq1
  exact ⟨q, converts_chain (by simp) (by simp) (by simp) (by simp) (by simp) (by simp) (by decide) h.col hd.col hcd hq, hq1, hq2, hq3.trans hsp⟩


omit [FloatModel] [ExactModel] in
theorem labG_unit {L : ℝ} (h0 : 0 ≤ L) (h1 : L ≤ 100) : 0 ≤ labG ((L + 16) / 116) ∧ labG ((L + 16) / 116) ≤ 1 := by
  unfold labG
  split_ifs with h
  · exact ⟨by positivity, pow_le_one₀ (by positivity) (by linarith)⟩
  · constructor <;> nlinarith

/-- C142: a LAB colour with a = b = 0 becomes a grey: the gamma correction of the light that belongs to the lightness, three times. -/
theorem C142_from_lab (w : World) (c : Color) (a : ℝ) (ha : c.malpha = fin a) (a0 : 0 ≤ a) (a1 : a ≤ 1) (L : ℝ) (L0 : 0 ≤ L) (L1 : L ≤ 100) (h : Is .lab c [L, 0, 0]) (s m : Nat)
    (hs : c.space = some s) (hm : (w.spaces s).gamma = some m) (P : Matrix (Fin 3) (Fin 3) ℝ) (u k : Fin 3 → ℝ) (hreach : SpaceReach w.whites (w.spaces s))
    (hr : SpaceDef.Regular w.whites (w.spaces s) P u) (hk : P.mulVec k = u) (hk0 : ∀ i, k i ≠ 0) (hu : ∀ i, 0 ≤ u i ∧ u i ≤ 100) (v : ℝ) (hv : 0 ≤ v ∧ v ≤ 1)
    (e : (w.gammas m).correct w.parts (fin (labG ((L + 16) / 116))) = fin v) : GivesWith w c .rgbDeep [v, v, v] a := by
  have hwh : HasWhite w c.space (u 0) (u 1) (u 2) := by
    obtain ⟨p, hp, ht⟩ := hr.white
    exact ⟨s, p, hs, hp, ht⟩
  obtain ⟨d, hcd, hd, hal, hsp⟩ := C111_from_lab w c a ha a0 a1 L 0 0 h _ _ _ hwh
  obtain ⟨l0, l1⟩ := labG_unit L0 L1
  set l := labG ((L + 16) / 116) with hl
  rw [zero_div, add_zero, zero_div, sub_zero, ← hl] at hd
  have nn : ∀ i, 0 ≤ u i * l := fun i => mul_nonneg (hu i).1 l0
  have le : ∀ i, u i * l ≤ 100 := fun i => (mul_le_of_le_one_right (hu i).1 l1).trans (hu i).2
  rw [limit_of (nn 0) (le 0), limit_of (nn 1) (le 1), limit_of (nn 2) (le 2), ← mixed_const P u k hk, ← mixed_const P u k hk, ← mixed_const P u k hk] at hd
  have hcl : clip l = l := by rw [clip, min_eq_right l1, max_eq_right l0]
  have hcv : clip v = v := by rw [clip, min_eq_right hv.2, max_eq_right hv.1]
  obtain ⟨q, hq, hq1, hq2, hq3⟩ := C112_from_xyz w d s m (hsp.trans hs) hm P u k (fun _ => l) hreach hr hk hk0 hd v v v (by rw [hcl]; exact e) (by rw [hcl]; exact e) (by rw [hcl]; exact e)
  rw [hcv] at hq1
  refine ⟨q, converts_chain (by simp) (by simp) (by simp) (by simp) (by simp) (by simp) (by decide) h.col hd.col hcd hq, hq1, ?_, hq3.trans hsp⟩
  rw [show q.alpha = q.malpha from by rw [Color.alpha, hq1.col.cls]; rfl, show d.alpha = d.malpha from by rw [Color.alpha, hd.col.cls]; rfl] at hq2
  rw [hq2, hal]

/-- C142: only greys have a = b = 0: the three channels of such a colour carry the same light. -/
theorem C142_lab_only (w : World) (c : Color) (a : ℝ) (ha : c.malpha = fin a) (a0 : 0 ≤ a) (a1 : a ≤ 1) (r g b : ℝ) (h : IsRgb c r g b) (s m : Nat) (hs : c.space = some s)
    (hm : (w.spaces s).gamma = some m) (P : Matrix (Fin 3) (Fin 3) ℝ) (u k l : Fin 3 → ℝ) (hreach : SpaceReach w.whites (w.spaces s)) (hr : SpaceDef.Regular w.whites (w.spaces s) P u)
    (hk : P.mulVec k = u) (hP : ∀ i j, 0 ≤ P i j) (hk0 : ∀ i, 0 < k i) (hu : ∀ i, 0 < u i ∧ u i ≤ 100) (hl : ∀ i, 0 ≤ l i ∧ l i ≤ 1)
    (er : (w.gammas m).inverse w.parts (fin r) = fin (l 0)) (eg : (w.gammas m).inverse w.parts (fin g) = fin (l 1)) (eb : (w.gammas m).inverse w.parts (fin b) = fin (l 2))
    (L : ℝ) (hh : GivesWith w c .lab [L, 0, 0] a) : l 0 = l 1 ∧ l 1 = l 2 := by
  obtain ⟨d, hcd, hd, hal, hsp⟩ := C112_to_xyz w c r g b h s m hs hm P u k l hreach hr hk hl er eg eb
  have nn : ∀ i, 0 ≤ mixed P k l i := fun i => Finset.sum_nonneg fun j _ => mul_nonneg (mul_nonneg (hP i j) (hk0 j).le) (hl j).1
  have le : ∀ i, mixed P k l i ≤ 100 := fun i => by
    refine le_trans ?_ (hu i).2
    rw [← hk, mixed, Matrix.mulVec, dotProduct]
    exact Finset.sum_le_sum fun j _ => mul_le_of_le_one_right (mul_nonneg (hP i j) (hk0 j).le) (hl j).2
  rw [limit_of (nn 0) (le 0), limit_of (nn 1) (le 1), limit_of (nn 2) (le 2)] at hd
  have hda : d.malpha = fin a := by
    rw [show d.alpha = d.malpha from by rw [Color.alpha, hd.col.cls]; rfl, show c.alpha = c.malpha from by rw [Color.alpha, h.col.cls]; rfl] at hal
    rw [hal, ha]
  have hwh : HasWhite w d.space (u 0) (u 1) (u 2) := by
    obtain ⟨p, hp, ht⟩ := hr.white
    exact ⟨s, p, hsp.trans hs, hp, ht⟩
  obtain ⟨q, hq, hq1, hq2, hq3⟩ := C111_to_lab w d a hda a0 a1 _ _ _ hd (nn 0) (nn 1) (nn 2) _ _ _ hwh (hu 0).1 (hu 1).1 (hu 2).1
  have hcq : Converts w c .lab q := converts_chain (by simp) (by simp) (by simp) (by simp) (by simp) (by simp) (by decide) h.col hd.col hcd hq
  obtain ⟨q', hcq', hq1', -⟩ := hh
  have hx := converts_unique hcq' hq1' hcq hq1
  simp only [List.cons.injEq, and_true] at hx
  have zero : ∀ {x : ℝ}, 0 = limit (-128) 128 x → x = 0 := by
    intro x hx
    unfold limit at hx
    rcases le_total x 128 with h1 | h1
    · rw [min_eq_right h1] at hx
      rcases le_total x (-128) with h2 | h2
      · rw [max_eq_left h2] at hx; norm_num at hx
      · rw [max_eq_right h2] at hx; exact hx.symm
    · rw [min_eq_left h1] at hx; norm_num at hx
  have pn : ∀ i, 0 ≤ mixed P k l i / u i := fun i => div_nonneg (nn i) (hu i).1.le
  have e1 : labF (mixed P k l 0 / u 0) = labF (mixed P k l 1 / u 1) := by linarith [zero hx.2.1]
  have e2 : labF (mixed P k l 1 / u 1) = labF (mixed P k l 2 / u 2) := by linarith [zero hx.2.2]
  have e1' : mixed P k l 0 / u 0 = mixed P k l 1 / u 1 := by rw [← labG_labF (pn 0), e1, labG_labF (pn 1)]
  have e2' : mixed P k l 1 / u 1 = mixed P k l 2 / u 2 := by rw [← labG_labF (pn 1), e2, labG_labF (pn 2)]
  set t := mixed P k l 1 / u 1 with ht
  have hall : P.mulVec (fun j => k j * l j) = P.mulVec (fun j => k j * t) := by
    have hm : ∀ l' : Fin 3 → ℝ, P.mulVec (fun j => k j * l' j) = mixed P k l' := by
      intro l'
      funext i
      simp only [Matrix.mulVec, dotProduct, mixed, mul_assoc]
    rw [hm, hm (fun _ => t)]
    funext i
    rw [mixed_const P u k hk]
    have : mixed P k l i / u i = t := by fin_cases i; exacts [e1', rfl, e2'.symm]
    rw [← this, mul_div_cancel₀ _ (hu i).1.ne']
  have hinj := congrArg (P⁻¹.mulVec) hall
  rw [Matrix.mulVec_mulVec, Matrix.mulVec_mulVec, Matrix.nonsing_inv_mul _ (isUnit_iff_ne_zero.mpr hr.det), Matrix.one_mulVec, Matrix.one_mulVec] at hinj
  have hlt : ∀ j, l j = t := fun j => mul_left_cancel₀ (hk0 j).ne' (congrFun hinj j)
  exact ⟨(hlt 0).trans (hlt 1).symm, (hlt 1).trans (hlt 2).symm⟩


omit [FloatModel] [ExactModel] in
theorem unit_fin {x : Fl} (h : InRange 0 1 x) : ∃ l, x = fin l := by
  cases x with
  | fin l => exact ⟨l, rfl⟩
  | _ => simp [InRange] at h

/-- What the predefined colour spaces meet of the hypotheses above. -/
theorem preset_positive (p : SpacePreset) (hp : p ≠ .cieRGB) : ∃ k : Fin 3 → ℝ, (presetPrimaries p).mulVec k = presetWhite p ∧ (∀ i, 0 < k i) ∧ (∀ i j, 0 ≤ presetPrimaries p i j) ∧
    ∀ i, 0 < presetWhite p i ∧ presetWhite p i ≤ 100 := by
  have hdet := preset_det p
  refine ⟨_, weights_cramer _ (presetWhite p) hdet.ne', fun i => div_pos ((preset_weights p).2 hp i) hdet, preset_nonneg p, fun i => ?_⟩
  have : (0 < presetWhite p 0 ∧ presetWhite p 0 ≤ 100) ∧ (0 < presetWhite p 1 ∧ presetWhite p 1 ≤ 100) ∧ (0 < presetWhite p 2 ∧ presetWhite p 2 ≤ 100) := by
    rw [show presetWhite p 0 = p.white.literals.1 from rfl, show presetWhite p 1 = p.white.literals.2.1 from rfl, show presetWhite p 2 = p.white.literals.2.2.1 from rfl]
    cases p <;> norm_num [SpacePreset.white, WhitePreset.literals]
  fin_cases i
  exacts [this.1, this.2.1, this.2.2]

/-- C142 for the predefined colour spaces and gamma curves: every grey of RGB has a = b = 0 and lightness 0 … 100, black has lightness 0 and white lightness 100. -/
theorem C142_presets [StdSort] (p : SpacePreset) (hp : p ≠ .cieRGB) (gp : GammaPreset) : ∃ w : World, w.Usable (some 0) ∧
    SpaceDef.Regular w.whites (w.spaces 0) (presetPrimaries p) (presetWhite p) ∧
    (∀ v, 0 ≤ v → v ≤ 1 → ∃ L, 0 ≤ L ∧ L ≤ 100 ∧ GivesWith w (rgbOf v v v 1 (some 0)) .lab [L, 0, 0] 1) ∧
    GivesWith w (rgbOf 0 0 0 1 (some 0)) .lab [0, 0, 0] 1 ∧ GivesWith w (rgbOf 1 1 1 1 (some 0)) .lab [100, 0, 0] 1 := by
  obtain ⟨w, hw, hm, -, -, hreach, hr, he⟩ := exists_world p gp
  obtain ⟨gm, hgm, hgm'⟩ := preset_curves gp (fun _ => ⟨none, 1⟩) 0
  obtain ⟨gm', hg', -, i0, i1, i2⟩ := C29_ends gp (fun _ => ⟨none, 1⟩) 0
  rw [hgm, ok_inj] at hg'
  subst hg'
  rw [(hgm' _).2, ← (he _).2] at i0 i1
  obtain ⟨k, hk, -, -, hu⟩ := preset_positive p hp
  have key := fun v (hv : 0 ≤ v ∧ v ≤ 1) l hl e => C142_to_lab w (rgbOf v v v 1 (some 0)) 1 one_def zero_le_one le_rfl v
    (isRgb_rgbOf _ _ ⟨hv.1, hv.2, hv.1, hv.2, hv.1, hv.2⟩) 0 0 rfl hm _ _ k hreach hr hk hu l hl e
  have z0 : labF 0 = 4 / 29 := by rw [labF, if_neg (by norm_num)]; norm_num
  have z1 : labF 1 = 1 := by rw [labF, if_pos (by norm_num), Real.one_rpow]
  refine ⟨w, hw, hr, fun v v0 v1 => ?_, ?_, ?_⟩
  · have hin := i2 v v0 v1
    rw [(hgm' _).2, ← (he _).2] at hin
    obtain ⟨l, hl⟩ := unit_fin hin
    rw [hl] at hin
    simp only [inRange_fin] at hin
    refine ⟨_, ?_, ?_, key v ⟨v0, v1⟩ l hin hl⟩
    · linarith [labF_pos hin.1]
    · linarith [labF_one_le hin.1 hin.2]
  · have := key 0 ⟨le_rfl, zero_le_one⟩ 0 ⟨le_rfl, zero_le_one⟩ i0
    rw [z0] at this
    norm_num at this
    exact this
  · have := key 1 ⟨zero_le_one, le_rfl⟩ 1 ⟨zero_le_one, le_rfl⟩ i1
    rw [z1] at this
    norm_num at this
    exact this

/- Cases: sRGB meets the hypotheses of C142_from_lab and C142_lab_only. -/
example : ∃ k : Fin 3 → ℝ, (presetPrimaries .sRGB).mulVec k = presetWhite .sRGB ∧ (∀ i, 0 < k i) ∧ (∀ i j, 0 ≤ presetPrimaries .sRGB i j) ∧ ∀ i, 0 < presetWhite .sRGB i ∧ presetWhite .sRGB i ≤ 100 :=
  preset_positive .sRGB (by decide)

/-! ## C143: brightness -/

/-- C143: an RGB colour that is at least as bright as another one in every channel has at least its HSV value, HSL lightness, HCY luma, HSI intensity and grey value, and no more
black ink. -/
theorem C143_brighter (w : World) (c c' : Color) (r g b r' g' b' : ℝ) (h : IsRgb c r g b) (h' : IsRgb c' r' g' b') (hr : r ≤ r') (hg : g ≤ g') (hb : b ≤ b') :
    (∀ H S V H' S' V', Gives w c .hsv [H, S, V] → Gives w c' .hsv [H', S', V'] → V ≤ V') ∧
    (∀ H S L H' S' L', Gives w c .hsl [H, S, L] → Gives w c' .hsl [H', S', L'] → L ≤ L') ∧
    (∀ H C Y H' C' Y', Gives w c .hcy [H, C, Y] → Gives w c' .hcy [H', C', Y'] → Y ≤ Y') ∧
    (∀ H S I H' S' I', Gives w c .hsi [H, S, I] → Gives w c' .hsi [H', S', I'] → I ≤ I') ∧
    (∀ v v', Gives w c .greyDeep [v] → Gives w c' .greyDeep [v'] → v ≤ v') ∧
    (∀ C M Y K C' M' Y' K', Gives w c .cmyk [C, M, Y, K] → Gives w c' .cmyk [C', M', Y', K'] → K' ≤ K) := by
  have ht : top r g b ≤ top r' g' b' := max_le_max (max_le_max hr hg) hb
  have hbt : bot r g b ≤ bot r' g' b' := min_le_min (min_le_min hr hg) hb
  refine ⟨?_, ?_, ?_, ?_, ?_, ?_⟩
  · intro H S V H' S' V' k k'
    obtain ⟨_, -, e⟩ := C104_to_hsv w c r g b h
    obtain ⟨_, -, e'⟩ := C104_to_hsv w c' r' g' b' h'
    have e := gives_unique k e
    have e' := gives_unique k' e'
    simp only [List.cons.injEq, and_true] at e e'
    rw [e.2.2, e'.2.2]
    exact ht
  · intro H S V H' S' V' k k'
    obtain ⟨_, -, e⟩ := C105_to_hsl w c r g b h
    obtain ⟨_, -, e'⟩ := C105_to_hsl w c' r' g' b' h'
    have e := gives_unique k e
    have e' := gives_unique k' e'
    simp only [List.cons.injEq, and_true] at e e'
    rw [e.2.2, e'.2.2, lightness, lightness]
    linarith
  · intro H S V H' S' V' k k'
    obtain ⟨_, -, e⟩ := C106_to_hcy w c r g b h
    obtain ⟨_, -, e'⟩ := C106_to_hcy w c' r' g' b' h'
    have e := gives_unique k e
    have e' := gives_unique k' e'
    simp only [List.cons.injEq, and_true] at e e'
    rw [e.2.2, e'.2.2, luma, luma]
    linarith
  · intro H S V H' S' V' k k'
    obtain ⟨_, -, e⟩ := C107_to_hsi w c r g b h
    obtain ⟨_, -, e'⟩ := C107_to_hsi w c' r' g' b' h'
    have e := gives_unique k e
    have e' := gives_unique k' e'
    simp only [List.cons.injEq, and_true] at e e'
    rw [e.2.2, e'.2.2, intensity, intensity]
    linarith
  · intro v v' k k'
    have e := gives_unique k (C109_grey_deep w c r g b h)
    have e' := gives_unique k' (C109_grey_deep w c' r' g' b' h')
    simp only [List.cons.injEq, and_true] at e e'
    rw [e, e']
    linarith
  · intro C M Y K C' M' Y' K' k k'
    have ink : ∀ {c : Color} {r g b : ℝ} {C M Y K : ℝ}, IsRgb c r g b → Gives w c .cmyk [C, M, Y, K] → K = 1 - top r g b := by
      intro c r g b C M Y K h k
      by_cases hz : top r g b = 0
      · have z : r = 0 ∧ g = 0 ∧ b = 0 := by
          have h1 : r ≤ top r g b := (le_max_left _ _).trans (le_max_left _ _)
          have h2 : g ≤ top r g b := (le_max_right _ _).trans (le_max_left _ _)
          have h3 : b ≤ top r g b := le_max_right _ _
          have := h.r0; have := h.g0; have := h.b0
          refine ⟨?_, ?_, ?_⟩ <;> linarith
        obtain ⟨rfl, rfl, rfl⟩ := z
        have e := gives_unique k (C108_black w c h)
        simp only [List.cons.injEq, and_true] at e
        rw [e.2.2.2, hz, sub_zero]
      · have e := gives_unique k (C108_to_cmyk w c r g b h hz)
        simp only [List.cons.injEq, and_true] at e
        exact e.2.2.2
    rw [ink h k, ink h' k']
    linarith

omit [FloatModel] [ExactModel] in
theorem limit_mono {lo hi x y : ℝ} (h : x ≤ y) : limit lo hi x ≤ limit lo hi y := max_le_max le_rfl (min_le_min le_rfl h)

/-- The XYZ and LAB values of an RGB colour. -/
theorem rgb_lab (w : World) (c : Color) (a : ℝ) (ha : c.malpha = fin a) (a0 : 0 ≤ a) (a1 : a ≤ 1) (r g b : ℝ) (h : IsRgb c r g b) (s m : Nat) (hs : c.space = some s)
    (hm : (w.spaces s).gamma = some m) (P : Matrix (Fin 3) (Fin 3) ℝ) (u k l : Fin 3 → ℝ) (hreach : SpaceReach w.whites (w.spaces s)) (hr : SpaceDef.Regular w.whites (w.spaces s) P u)
    (hk : P.mulVec k = u) (hP : ∀ i j, 0 ≤ P i j) (hk0 : ∀ i, 0 < k i) (hu : ∀ i, 0 < u i ∧ u i ≤ 100) (hl : ∀ i, 0 ≤ l i ∧ l i ≤ 1)
    (er : (w.gammas m).inverse w.parts (fin r) = fin (l 0)) (eg : (w.gammas m).inverse w.parts (fin g) = fin (l 1)) (eb : (w.gammas m).inverse w.parts (fin b) = fin (l 2)) :
    Gives w c .xyz [mixed P k l 0, mixed P k l 1, mixed P k l 2] ∧ ∃ p q, GivesWith w c .lab [limit 0 100 (116 * labF (mixed P k l 1 / u 1) - 16), p, q] a := by
  have base := C112_to_xyz w c r g b h s m hs hm P u k l hreach hr hk hl er eg eb
  have nn : ∀ i, 0 ≤ mixed P k l i := fun i => Finset.sum_nonneg fun j _ => mul_nonneg (mul_nonneg (hP i j) (hk0 j).le) (hl j).1
  have le : ∀ i, mixed P k l i ≤ 100 := fun i => by
    refine le_trans ?_ (hu i).2
    rw [← hk, mixed, Matrix.mulVec, dotProduct]
    exact Finset.sum_le_sum fun j _ => mul_le_of_le_one_right (mul_nonneg (hP i j) (hk0 j).le) (hl j).2
  rw [limit_of (nn 0) (le 0), limit_of (nn 1) (le 1), limit_of (nn 2) (le 2)] at base
  refine ⟨base, ?_⟩
  obtain ⟨d, hcd, hd, hal, hsp⟩ := base
  have hda : d.malpha = fin a := by
    rw [show d.alpha = d.malpha from by rw [Color.alpha, hd.col.cls]; rfl, show c.alpha = c.malpha from by rw [Color.alpha, h.col.cls]; rfl] at hal
    rw [hal, ha]
  have hwh : HasWhite w d.space (u 0) (u 1) (u 2) := by
    obtain ⟨p, hp, ht⟩ := hr.white
    exact ⟨s, p, hsp.trans hs, hp, ht⟩
  obtain ⟨q, hq, hq1, hq2, hq3⟩ := C111_to_lab w d a hda a0 a1 _ _ _ hd (nn 0) (nn 1) (nn 2) _ _ _ hwh (hu 0).1 (hu 1).1 (hu 2).1
  exact ⟨_, _, q, converts_chain (by simp) (by simp) (by simp) (by simp) (by simp) (by simp) (by decide) h.col hd.col hcd hq, hq1, hq2, hq3.trans hsp⟩

/-- The lightness of CIELUV decreases by less than 0.0001 where it should increase (the two pieces of the code's function do not quite meet). -/
theorem luvL_almost {s t : ℝ} (hs : 0 ≤ s) (h : s ≤ t) : luvL s ≤ luvL t + 0.0001 := by
  have cube : ∀ x : ℝ, 0 ≤ x → (x ^ (1 / 3 : ℝ)) ^ 3 = x := fun x hx => by rw [← Real.rpow_natCast, ← Real.rpow_mul hx]; norm_num
  unfold luvL
  split <;> split <;> rename_i h1 h2
  · have := Real.rpow_le_rpow hs h (show (0 : ℝ) ≤ 1 / 3 by norm_num)
    linarith
  · linarith
  · have ht := hs.trans h
    have c := cube t ht
    have n := Real.rpow_nonneg ht (1 / 3 : ℝ)
    by_contra hh
    push Not at hh
    have u : t ^ (1 / 3 : ℝ) ≤ 0.206892456 := by linarith
    have := pow_le_pow_left₀ n u 3
    rw [c] at this
    norm_num at this h2
    linarith
  · linarith

/-- The CIELUV lightness of an RGB colour with a positive X. -/
theorem rgb_luv (w : World) (c : Color) (a : ℝ) (ha : c.malpha = fin a) (x y z : ℝ) {r g b : ℝ} (h : IsRgb c r g b) (s : Nat) (hs : c.space = some s)
    (P : Matrix (Fin 3) (Fin 3) ℝ) (u : Fin 3 → ℝ) (hr : SpaceDef.Regular w.whites (w.spaces s) P u) (hu : ∀ i, 0 < u i ∧ u i ≤ 100)
    (hx : 0 < x) (hy : 0 ≤ y) (hz : 0 ≤ z) (base : Gives w c .xyz [x, y, z]) :
    ∃ p q, GivesWith w c .cieluv [limit 0 100 (luvL (x / u 1)), p, q] a := by
  obtain ⟨d, hcd, hd, hal, hsp⟩ := base
  have hda : d.malpha = fin a := by
    rw [show d.alpha = d.malpha from by rw [Color.alpha, hd.col.cls]; rfl, show c.alpha = c.malpha from by rw [Color.alpha, h.col.cls]; rfl] at hal
    rw [hal, ha]
  have hwh : HasWhite w d.space (u 0) (u 1) (u 2) := by
    obtain ⟨p, hp, ht⟩ := hr.white
    exact ⟨s, p, hsp.trans hs, hp, ht⟩
  have hD : x + 15 * y + 3 * z ≠ 0 := by positivity
  have hDW : u 0 + 15 * u 1 + 3 * u 2 ≠ 0 := by have := (hu 0).1; have := (hu 1).1; have := (hu 2).1; positivity
  obtain ⟨q, hq, hq1, hq2, hq3⟩ := C113_to_luv w d a hda _ _ _ hd hx.le _ _ _ hwh (hu 1).1 hD hDW
  exact ⟨_, _, q, converts_chain (by simp) (by simp) (by simp) (by simp) (by simp) (by simp) (by decide) h.col hd.col hcd hq, hq1, hq2, hq3.trans hsp⟩

/-- C143 for the predefined colour spaces and gamma curves (except the primaries of cieRGB, whose white point is wrong, and the curve of ROMM, which is not monotone): brighter channels give larger
X, Y and Z and a larger LAB lightness, and a CIELUV lightness that is larger up to 0.0001 (colours with X = 0, that is black, have no CIELUV values). -/
theorem C143_luminance_partial [StdSort] (p : SpacePreset) (hp : p ≠ .cieRGB) (gp : GammaPreset) (hgp : gp ≠ .romm) : ∃ w : World, w.Usable (some 0) ∧
    SpaceDef.Regular w.whites (w.spaces 0) (presetPrimaries p) (presetWhite p) ∧
    ∀ (c c' : Color) (a a' r g b r' g' b' : ℝ), c.malpha = fin a → c'.malpha = fin a' → 0 ≤ a → a ≤ 1 → 0 ≤ a' → a' ≤ 1 → IsRgb c r g b → IsRgb c' r' g' b' → c.space = some 0 → c'.space = some 0 →
      r ≤ r' → g ≤ g' → b ≤ b' →
      (∃ X Y Z X' Y' Z', Gives w c .xyz [X, Y, Z] ∧ Gives w c' .xyz [X', Y', Z'] ∧ X ≤ X' ∧ Y ≤ Y' ∧ Z ≤ Z') ∧
      (∃ L p q L' p' q', GivesWith w c .lab [L, p, q] a ∧ GivesWith w c' .lab [L', p', q'] a' ∧ L ≤ L') ∧
      ∀ X Y Z, Gives w c .xyz [X, Y, Z] → 0 < X →
        ∃ L p q L' p' q', GivesWith w c .cieluv [L, p, q] a ∧ GivesWith w c' .cieluv [L', p', q'] a' ∧ L ≤ L' + 0.0001 := by
  obtain ⟨w, hw, hm, -, -, hreach, hr, he⟩ := exists_world p gp
  obtain ⟨gm, hgm, hgm'⟩ := preset_curves gp (fun _ => ⟨none, 1⟩) 0
  obtain ⟨gm', hg', -, hc⟩ := C29_unit_partial gp (fun _ => ⟨none, 1⟩) 0
  rw [hgm, ok_inj] at hg'
  subst hg'
  have hcurve : UnitCurve ((w.gammas 0).inverse w.parts) := by
    have : (w.gammas 0).inverse w.parts = gm.inverse (gp.create (fun _ => ⟨none, 1⟩) 0).1 := funext fun x => by rw [(he x).2, (hgm' x).2]
    rw [this]
    exact hc hgp
  obtain ⟨-, -, hrange, hmono⟩ := hcurve
  have light : ∀ v, 0 ≤ v → v ≤ 1 → ∃ l, (0 ≤ l ∧ l ≤ 1) ∧ (w.gammas 0).inverse w.parts (fin v) = fin l := by
    intro v v0 v1
    have hin := hrange v v0 v1
    obtain ⟨l, hl⟩ := unit_fin hin
    rw [hl] at hin
    exact ⟨l, inRange_fin.mp hin, hl⟩
  obtain ⟨k, hk, hk0, hP, hu⟩ := preset_positive p hp
  refine ⟨w, hw, hr, fun c c' a a' r g b r' g' b' ha ha' a0 a1 a0' a1' h h' hs hs' hrr hgg hbb => ?_⟩
  obtain ⟨l0, b0, e0⟩ := light r h.r0 h.r1
  obtain ⟨l1, b1, e1⟩ := light g h.g0 h.g1
  obtain ⟨l2, b2, e2⟩ := light b h.b0 h.b1
  obtain ⟨m0, b0', e0'⟩ := light r' h'.r0 h'.r1
  obtain ⟨m1, b1', e1'⟩ := light g' h'.g0 h'.g1
  obtain ⟨m2, b2', e2'⟩ := light b' h'.b0 h'.b1
  have q0 : l0 ≤ m0 := by have := hmono r r' h.r0 hrr h'.r1; rwa [e0, e0', fin_le] at this
  have q1 : l1 ≤ m1 := by have := hmono g g' h.g0 hgg h'.g1; rwa [e1, e1', fin_le] at this
  have q2 : l2 ≤ m2 := by have := hmono b b' h.b0 hbb h'.b1; rwa [e2, e2', fin_le] at this
  have hl : ∀ i, 0 ≤ (![l0, l1, l2] : Fin 3 → ℝ) i ∧ (![l0, l1, l2] : Fin 3 → ℝ) i ≤ 1 := by intro i; fin_cases i; exacts [b0, b1, b2]
  have hl' : ∀ i, 0 ≤ (![m0, m1, m2] : Fin 3 → ℝ) i ∧ (![m0, m1, m2] : Fin 3 → ℝ) i ≤ 1 := by intro i; fin_cases i; exacts [b0', b1', b2']
  have hll : ∀ i, (![l0, l1, l2] : Fin 3 → ℝ) i ≤ (![m0, m1, m2] : Fin 3 → ℝ) i := by intro i; fin_cases i; exacts [q0, q1, q2]
  have hmix : ∀ i, mixed (presetPrimaries p) k ![l0, l1, l2] i ≤ mixed (presetPrimaries p) k ![m0, m1, m2] i := fun i =>
    Finset.sum_le_sum fun j _ => mul_le_mul_of_nonneg_left (hll j) (mul_nonneg (hP i j) (hk0 j).le)
  obtain ⟨x, p1, q1, y⟩ := rgb_lab w c a ha a0 a1 r g b h 0 0 hs hm _ _ k ![l0, l1, l2] hreach hr hk hP hk0 hu hl e0 e1 e2
  obtain ⟨x', p2, q2, y'⟩ := rgb_lab w c' a' ha' a0' a1' r' g' b' h' 0 0 hs' hm _ _ k ![m0, m1, m2] hreach hr hk hP hk0 hu hl' e0' e1' e2'
  have nn : ∀ i, 0 ≤ mixed (presetPrimaries p) k ![l0, l1, l2] i := fun i => Finset.sum_nonneg fun j _ => mul_nonneg (mul_nonneg (hP i j) (hk0 j).le) (hl j).1
  refine ⟨⟨_, _, _, _, _, _, x, x', hmix 0, hmix 1, hmix 2⟩, ⟨_, _, _, _, _, _, y, y', limit_mono ?_⟩, fun X Y Z hX pX => ?_⟩
  · have hd := div_le_div_of_nonneg_right (hmix 1) (hu 1).1.le
    rcases hd.lt_or_eq with hd | hd
    · have := labF_lt (div_nonneg (nn 1) (hu 1).1.le) hd
      linarith
    · rw [hd]
  · have e := gives_unique hX x
    simp only [List.cons.injEq, and_true] at e
    rw [e.1] at pX
    obtain ⟨p3, q3, v⟩ := rgb_luv w c a ha _ _ _ h 0 hs _ _ hr hu pX (nn 1) (nn 2) x
    obtain ⟨p4, q4, v'⟩ := rgb_luv w c' a' ha' _ _ _ h' 0 hs' _ _ hr hu (pX.trans_le (hmix 0)) ((nn 1).trans (hmix 1)) ((nn 2).trans (hmix 2)) x'
    refine ⟨_, _, _, _, _, _, v, v', ?_⟩
    have hle := limit_mono (lo := 0) (hi := 100) (luvL_almost (div_nonneg (nn 0) (hu 1).1.le) (div_le_div_of_nonneg_right (hmix 0) (hu 1).1.le))
    refine hle.trans ?_
    unfold limit
    rcases max_cases 0 (min 100 (luvL (mixed (presetPrimaries p) k ![m0, m1, m2] 0 / presetWhite p 1) + 0.0001)) with ⟨h1, h2⟩ | ⟨h1, h2⟩ <;> rw [h1]
    · have := le_max_left 0 (min 100 (luvL (mixed (presetPrimaries p) k ![m0, m1, m2] 0 / presetWhite p 1)))
      linarith
    · have := le_max_right 0 (min 100 (luvL (mixed (presetPrimaries p) k ![m0, m1, m2] 0 / presetWhite p 1)))
      have : min 100 (luvL (mixed (presetPrimaries p) k ![m0, m1, m2] 0 / presetWhite p 1) + 0.0001) ≤ min 100 (luvL (mixed (presetPrimaries p) k ![m0, m1, m2] 0 / presetWhite p 1)) + 0.0001 := by
        rw [← min_add_add_right]
        exact min_le_min (by norm_num) le_rfl
      linarith

/-- C143, violated: with the gamma curve of ROMM a brighter grey has a smaller Y. -/
theorem C143_violated [StdSort] (p : SpacePreset) (hp : p ≠ .cieRGB) : ∃ w : World, w.Usable (some 0) ∧ ∃ X Y Z X' Y' Z', Gives w (rgbOf 0.0019 0.0019 0.0019 1 (some 0)) .xyz [X, Y, Z] ∧
    Gives w (rgbOf 0.002 0.002 0.002 1 (some 0)) .xyz [X', Y', Z'] ∧ Y' < Y := by
  obtain ⟨w, hw, hm, -, -, hreach, hr, he⟩ := exists_world p .romm
  obtain ⟨gm, hgm, hgm'⟩ := preset_curves .romm (fun _ => ⟨none, 1⟩) 0
  obtain ⟨gm', hg', -, -, -, hrange⟩ := C29_ends .romm (fun _ => ⟨none, 1⟩) 0
  rw [hgm, ok_inj] at hg'
  subst hg'
  obtain ⟨⟨gm', hg', hlt⟩, -⟩ := C29_violated (fun _ => ⟨none, 1⟩) 0
  rw [hgm, ok_inj] at hg'
  subst hg'
  have hinv : gm.inverse (GammaPreset.romm.create (fun _ => ⟨none, 1⟩) 0).1 = (w.gammas 0).inverse w.parts := funext fun x => by rw [(he x).2, (hgm' x).2]
  rw [hinv] at hlt hrange
  have light : ∀ v, 0 ≤ v → v ≤ 1 → ∃ l, (0 ≤ l ∧ l ≤ 1) ∧ (w.gammas 0).inverse w.parts (fin v) = fin l := by
    intro v v0 v1
    have hin := hrange v v0 v1
    obtain ⟨l, hl⟩ := unit_fin hin
    rw [hl] at hin
    exact ⟨l, inRange_fin.mp hin, hl⟩
  obtain ⟨k, hk, hk0, hP, hu⟩ := preset_positive p hp
  obtain ⟨l, hl, e⟩ := light 0.0019 (by norm_num) (by norm_num)
  obtain ⟨l', hl', e'⟩ := light 0.002 (by norm_num) (by norm_num)
  rw [e, e', fin_lt] at hlt
  have x := (rgb_lab w (rgbOf 0.0019 0.0019 0.0019 1 (some 0)) 1 one_def zero_le_one le_rfl _ _ _ (isRgb_rgbOf _ _ (by norm_num)) 0 0 rfl hm _ _ k (fun _ => l) hreach hr hk hP hk0 hu (fun _ => hl) e e e).1
  have x' := (rgb_lab w (rgbOf 0.002 0.002 0.002 1 (some 0)) 1 one_def zero_le_one le_rfl _ _ _ (isRgb_rgbOf _ _ (by norm_num)) 0 0 rfl hm _ _ k (fun _ => l') hreach hr hk hP hk0 hu (fun _ => hl') e' e' e').1
  refine ⟨w, hw, _, _, _, _, _, _, x, x', ?_⟩
  rw [mixed_const _ _ k hk, mixed_const _ _ k hk]
  exact mul_lt_mul_of_pos_left hlt (hu 1).1

/-- C143, violated: whatever the predefined colour space and the power curve, there are two greys of which the brighter one has the smaller CIELUV lightness. -/
theorem C143_luv_violated [StdSort] (p : SpacePreset) (hp : p ≠ .cieRGB) (gp : GammaPreset) (hgp : gp = .g1_8 ∨ gp = .g2_2 ∨ gp = .g2_6 ∨ gp = .g2_8 ∨ gp = .adobe) :
    ∃ w : World, w.Usable (some 0) ∧ ∃ r r' L u v L' u' v', r < r' ∧ GivesWith w (rgbOf r r r 1 (some 0)) .cieluv [L, u, v] 1 ∧
      GivesWith w (rgbOf r' r' r' 1 (some 0)) .cieluv [L', u', v'] 1 ∧ L' < L := by
  obtain ⟨w, hw, hm, -, -, hreach, hr, he⟩ := exists_world p gp
  obtain ⟨gm, hgm, hgm'⟩ := preset_curves gp (fun _ => ⟨none, 1⟩) 0
  obtain ⟨gm', hg', hback⟩ := C28_power gp hgp (fun _ => ⟨none, 1⟩) 0
  rw [hgm, ok_inj] at hg'
  subst hg'
  obtain ⟨gm', hg', hcor, hinv⟩ := C29_unit_partial gp (fun _ => ⟨none, 1⟩) 0
  rw [hgm, ok_inj] at hg'
  subst hg'
  have hne : gp ≠ .sRGB ∧ gp ≠ .uhdtv ∧ gp ≠ .romm := by rcases hgp with rfl | rfl | rfl | rfl | rfl <;> decide
  have hinv := hinv hne.2.2
  have hcor := hcor hne.1 hne.2.1
  have heq : (w.gammas 0).inverse w.parts = gm.inverse (gp.create (fun _ => ⟨none, 1⟩) 0).1 := funext fun x => by rw [(he x).2, (hgm' x).2]
  rw [← heq] at hinv hback
  have reach : ∀ l, 0 ≤ l → l ≤ 1 → ∃ v, (0 ≤ v ∧ v ≤ 1) ∧ (w.gammas 0).inverse w.parts (fin v) = fin l := by
    intro l l0 l1
    have hin := hcor.2.2.1 l l0 l1
    obtain ⟨v, hv⟩ := unit_fin hin
    have hb := (hback l l0 l1).1
    rw [hv] at hb hin
    exact ⟨v, inRange_fin.mp hin, hb⟩
  obtain ⟨k, hk, hk0, hP, hu⟩ := preset_positive p hp
  have p0 := (hu 0).1
  have p1 := (hu 1).1
  have p2 := (hu 2).1
  have hq : presetWhite p 1 / presetWhite p 0 ≤ 10 := by
    rw [div_le_iff₀ p0, show presetWhite p 0 = p.white.literals.1 from rfl, show presetWhite p 1 = p.white.literals.2.1 from rfl]
    cases p <;> norm_num [SpacePreset.white, WhitePreset.literals]
  set q := presetWhite p 1 / presetWhite p 0 with hqdef
  have q0 : 0 < q := div_pos p1 p0
  obtain ⟨r, ⟨r0, r1⟩, e⟩ := reach (0.008856 * q) (by positivity) (by norm_num; linarith)
  obtain ⟨r', ⟨r0', r1'⟩, e'⟩ := reach (0.00885601 * q) (by positivity) (by norm_num; linarith)
  have hlt : r < r' := by
    by_contra hh
    push Not at hh
    have := hinv.2.2.2 r' r r0' hh r1
    rw [e, e', fin_le] at this
    norm_num at this
    nlinarith
  have grey : ∀ l v, 0 < l → l ≤ 1 → 0 ≤ v → v ≤ 1 → (w.gammas 0).inverse w.parts (fin v) = fin l →
      ∃ x y, GivesWith w (rgbOf v v v 1 (some 0)) .cieluv [limit 0 100 (luvL (l / q)), x, y] 1 := by
    intro l v l0 l1 v0 v1 hl
    have hv : IsRgb (rgbOf v v v 1 (some 0)) v v v := isRgb_rgbOf _ _ ⟨v0, v1, v0, v1, v0, v1⟩
    have x := (rgb_lab w _ 1 one_def zero_le_one le_rfl _ _ _ hv 0 0 rfl hm _ _ k (fun _ => l) hreach hr hk hP hk0 hu (fun _ => ⟨l0.le, l1⟩) hl hl hl).1
    rw [mixed_const _ _ k hk, mixed_const _ _ k hk, mixed_const _ _ k hk] at x
    obtain ⟨x, y, h⟩ := rgb_luv w _ 1 one_def _ _ _ hv 0 rfl _ _ hr hu (by positivity) (by positivity) (by positivity) x
    rw [show presetWhite p 0 * l / presetWhite p 1 = l / q by rw [hqdef]; field_simp] at h
    exact ⟨x, y, h⟩
  obtain ⟨u, v, h1⟩ := grey _ _ (by positivity) (by norm_num; linarith) r0 r1 e
  obtain ⟨u', v', h2⟩ := grey _ _ (by positivity) (by norm_num; linarith) r0' r1' e'
  refine ⟨w, hw, r, r', _, _, _, _, _, _, hlt, h1, h2, ?_⟩
  rw [mul_div_cancel_right₀ _ q0.ne', mul_div_cancel_right₀ _ q0.ne']
  have c : ((0.00885601 : ℝ) ^ (1 / 3 : ℝ)) ^ 3 = 0.00885601 := by rw [← Real.rpow_natCast, ← Real.rpow_mul (by norm_num)]; norm_num
  have n := Real.rpow_nonneg (show (0 : ℝ) ≤ 0.00885601 by norm_num) (1 / 3 : ℝ)
  have lo : 0.2 < (0.00885601 : ℝ) ^ (1 / 3 : ℝ) := by
    by_contra hh
    push Not at hh
    have := pow_le_pow_left₀ n hh 3
    rw [c] at this
    norm_num at this
  have hi : (0.00885601 : ℝ) ^ (1 / 3 : ℝ) < 0.2068933 := by
    by_contra hh
    push Not at hh
    have := pow_le_pow_left₀ (by norm_num) hh 3
    rw [c] at this
    norm_num at this
  have a1 : luvL 0.00885601 = 116 * (0.00885601 : ℝ) ^ (1 / 3 : ℝ) - 16 := if_pos (by norm_num)
  have a2 : luvL 0.008856 = 903.3 * 0.008856 := if_neg (by norm_num)
  rw [a1, a2, limit_of (by linarith) (by linarith), limit_of (by norm_num) (by norm_num)]
  norm_num at hi ⊢
  linarith

/-- C143, violated: with the predefined colour space cieRGB, and whatever the gamma curve, white has a smaller Y than cyan. -/
theorem C143_cieRGB_violated [StdSort] (gp : GammaPreset) : ∃ w : World, w.Usable (some 0) ∧ SpaceDef.Regular w.whites (w.spaces 0) (presetPrimaries .cieRGB) (presetWhite .cieRGB) ∧
    ∃ X Y Z X' Y' Z', Gives w (rgbOf 0 1 1 1 (some 0)) .xyz [X, Y, Z] ∧ Gives w (rgbOf 1 1 1 1 (some 0)) .xyz [X', Y', Z'] ∧ Y' < Y := by
  obtain ⟨w, hw, hm, -, -, hreach, hr, he⟩ := exists_world .cieRGB gp
  obtain ⟨gm, hgm, hgm'⟩ := preset_curves gp (fun _ => ⟨none, 1⟩) 0
  obtain ⟨gm', hg', -, hz, ho, -⟩ := C29_ends gp (fun _ => ⟨none, 1⟩) 0
  rw [hgm, ok_inj] at hg'
  subst hg'
  have heq : gm.inverse (gp.create (fun _ => ⟨none, 1⟩) 0).1 = (w.gammas 0).inverse w.parts := funext fun x => by rw [(he x).2, (hgm' x).2]
  rw [heq] at hz ho
  have hd := preset_det .cieRGB
  have hk := weights_cramer _ (presetWhite .cieRGB) hd.ne'
  set k : Fin 3 → ℝ := fun i => ((presetPrimaries .cieRGB).updateCol i (presetWhite .cieRGB)).det / (presetPrimaries .cieRGB).det with hkdef
  have hv : k 0 < -0.45 ∧ -1 < k 0 := by
    rw [hkdef]
    simp only
    rw [div_lt_iff₀ hd, lt_div_iff₀ hd, Matrix.det_fin_three, Matrix.det_fin_three]
    simp [presetPrimaries, presetWhite, ccMat, SpacePreset.primaries, SpacePreset.white, WhitePreset.literals, Matrix.updateCol_apply]
    norm_num
  have b0 : ∀ i, (0 : ℝ) ≤ (![0, 1, 1] : Fin 3 → ℝ) i ∧ (![0, 1, 1] : Fin 3 → ℝ) i ≤ 1 := by intro i; fin_cases i <;> simp
  have b1 : ∀ i, (0 : ℝ) ≤ (fun _ => 1 : Fin 3 → ℝ) i ∧ (fun _ => 1 : Fin 3 → ℝ) i ≤ 1 := by intro i; simp
  have x := C112_to_xyz w (rgbOf 0 1 1 1 (some 0)) 0 1 1 (isRgb_rgbOf _ _ (by norm_num)) 0 0 rfl hm _ _ k ![0, 1, 1] hreach hr hk b0 hz ho ho
  have x' := C112_to_xyz w (rgbOf 1 1 1 1 (some 0)) 1 1 1 (isRgb_rgbOf _ _ (by norm_num)) 0 0 rfl hm _ _ k (fun _ => 1) hreach hr hk b1 ho ho ho
  refine ⟨w, hw, hr, _, _, _, _, _, _, x, x', ?_⟩
  have m1 := mixed_const _ _ k hk 1 1
  have u1 : presetWhite .cieRGB 1 = 1 := by simp [presetWhite, SpacePreset.white, WhitePreset.literals]
  have hp : presetPrimaries .cieRGB 1 0 = 0.2653 := by simp [presetPrimaries, ccMat, SpacePreset.primaries]
  have m0 : mixed (presetPrimaries .cieRGB) k ![0, 1, 1] 1 = mixed (presetPrimaries .cieRGB) k (fun _ => 1) 1 - presetPrimaries .cieRGB 1 0 * k 0 := by
    simp [mixed, Fin.sum_univ_three]
    ring
  rw [m0, m1, u1, hp, limit_of (by norm_num) (by norm_num), limit_of (by norm_num; linarith [hv.1]) (by norm_num; linarith [hv.2])]
  norm_num
  linarith [hv.1]

/- A case of C143: orange is at least as bright as brown. -/
example [StdSort] : ∃ w : World, ∃ L p q L' p' q', GivesWith w (rgbOf 0.5 0.25 0 1 (some 0)) .lab [L, p, q] 1 ∧ GivesWith w (rgbOf 1 0.5 0 1 (some 0)) .lab [L', p', q'] 1 ∧ L ≤ L' := by
  obtain ⟨w, -, -, h⟩ := C143_luminance_partial .sRGB (by decide) .sRGB (by decide)
  exact ⟨w, (h (rgbOf 0.5 0.25 0 1 (some 0)) (rgbOf 1 0.5 0 1 (some 0)) 1 1 0.5 0.25 0 1 0.5 0 one_def one_def zero_le_one le_rfl zero_le_one le_rfl
    (isRgb_rgbOf _ _ (by norm_num)) (isRgb_rgbOf _ _ (by norm_num)) rfl rfl (by norm_num) (by norm_num) le_rfl).2.1⟩

/- The two greys of sRGB with gamma 2.2. -/
example [StdSort] : ∃ w : World, ∃ r r' L u v L' u' v', r < r' ∧ GivesWith w (rgbOf r r r 1 (some 0)) .cieluv [L, u, v] 1 ∧
    GivesWith w (rgbOf r' r' r' 1 (some 0)) .cieluv [L', u', v'] 1 ∧ L' < L := by
  obtain ⟨w, -, h⟩ := C143_luv_violated .sRGB (by decide) .g2_2 (by decide)
  exact ⟨w, h⟩

end
