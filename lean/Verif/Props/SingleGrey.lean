import Verif.Props.SingleHsi
import Verif.Props.WholeBytes
import Verif.Props.Routes
import Verif.Props.FineXyy

/-!
# 8-bit greys on a trip through the other classes in single precision (C183)

A grey takes the same way as the RGB colour with three equal channels, and the mean of three equal bytes is computed exactly.  So its level survives wherever that colour survives.
The opacity is multiplied and divided by 255 once more on the way.
-/

open Outcome Fl Prog ObjectSpec ConvSpec CombineSpec Hue GapFine HcyFine

namespace GreyTrip

section
variable [FloatModel]

/-- The 8-bit grey and the 8-bit RGB colour become the same RGB_DEEP colour. -/
theorem same_deep {V A : ℕ} (hV : V ≤ 255) {sp : Option Nat} {g c : Color} (hg : Color.construct .greyTrue [fin V] (fin A) sp = ok g)
    (hc : Color.construct .rgbTrue [fin V, fin V, fin V] (fin A) sp = ok c) : Leaf.grey_true_to_rgb_deep g = Leaf.rgb_true_to_rgb_deep c := by
  rw [Color.construct_greyTrue, ok_inj] at hg
  rw [Color.construct_rgbTrue, ok_inj] at hc
  subst hg hc
  have g0 : (Color.mkGreyTrue (fin V) (fin A) sp).getComponent 0 = ok (fin V) := Conv.getComponent_of (by norm_num) (by simp only [Color.mkGreyTrue, HsiFine.byte_clamp hV]; rfl)
  simp only [Leaf.grey_true_to_rgb_deep, Leaf.rgb_true_to_rgb_deep, g0, ok_bind, Color.constructGrey, Color.mkRgbTrue, Conv.get3_0, Conv.get3_1, Conv.get3_2, HsiFine.byte_clamp hV]
  rfl

/-- … and hence the same colour of every other class. -/
theorem same_conv {t : ColorType} (ht : t ≠ .undefined) (h8 : ¬ EightBit t) (hd : t ≠ .greyDeep) {V A : ℕ} (hV : V ≤ 255) {sp : Option Nat} {g c : Color}
    (hg : Color.construct .greyTrue [fin V] (fin A) sp = ok g) (hc : Color.construct .rgbTrue [fin V, fin V, fin V] (fin A) sp = ok c) (w : World) :
    Val.conv .greyTrue t w g = Val.conv .rgbTrue t w c := by
  have key : Val.conv .greyTrue .rgbDeep w g = Val.conv .rgbTrue .rgbDeep w c := same_deep hV hg hc
  by_cases h : t = .rgbDeep
  · subst h; exact key
  · have m1 : (ColorType.greyTrue, t) ∈ Val.passes .rgbDeep := by
      revert ht h8 hd h; cases t <;> simp [EightBit, Val.passes]
    have m2 : (ColorType.rgbTrue, t) ∈ Val.passes .rgbDeep := by
      revert ht h8 hd h; cases t <;> simp [EightBit, Val.passes]
    rw [Val.cut_all .rgbDeep w g _ m1, Val.cut_all .rgbDeep w c _ m2]
    simp only [key]

/-- The way back goes by RGB_TRUE. -/
theorem way_back {t : ColorType} (ht : t ≠ .undefined) (h8 : ¬ EightBit t) (hd : t ≠ .greyDeep) (w : World) (d : Color) :
    Val.conv t .greyTrue w d = (Val.conv t .rgbTrue w d >>= Leaf.rgb_true_to_grey_true) := by
  have m : (t, ColorType.greyTrue) ∈ Val.passes .rgbTrue := by
    revert ht h8 hd; cases t <;> simp [EightBit, Val.passes]
  rw [Val.cut_all .rgbTrue w d _ m]
  rfl

/-- The colours on a trip. -/
theorem stations {s t : ColorType} (hs : s ≠ .undefined) (ht : t ≠ .undefined) (hst : s ≠ t) {w : World} {c c' : Color} (hcol : IsColor s c) (hT : Trip w c t s c') :
    ∃ d, Val.conv s t w c = ok d ∧ Val.conv t s w d = ok c' := by
  obtain ⟨q, h', r, h'', a1, a2, a3⟩ := hT ⟨w, [c]⟩ 0 rfl rfl
  have hd := Conv.dispatcher_spec s t hs ht hst ⟨w, [c]⟩ 0 c rfl hcol
  cases h1 : Val.conv s t w c with
  | throw e => simp only [h1] at hd; obtain ⟨_, hd⟩ := hd; rw [a1] at hd; simp at hd
  | ub => simp only [h1] at hd; obtain ⟨_, hd⟩ := hd; rw [a1] at hd; simp at hd
  | ok d =>
    simp only [h1] at hd
    obtain ⟨ext, hd⟩ := hd
    rw [a1] at hd
    simp only [Prod.mk.injEq, Outcome.ok.injEq, Option.some.injEq] at hd
    obtain ⟨rfl, rfl⟩ := hd
    have hcd := ((Conv.good_direct s t hs ht hst).result _ _ _ h1).col
    have he := Conv.dispatcher_spec t s ht hs (Ne.symm hst) ⟨w, [c].set 0 (Conv.effect s t w c) ++ ext ++ [d]⟩ _ d (length_lookup [c] ext 0 _ d) hcd
    cases h2 : Val.conv t s w d with
    | throw e => simp only [h2] at he; obtain ⟨_, he⟩ := he; rw [a2] at he; simp at he
    | ub => simp only [h2] at he; obtain ⟨_, he⟩ := he; rw [a2] at he; simp at he
    | ok x => exact ⟨d, rfl, by rw [h2, (trip_of hs ht hst hcol h1 h2).unique hT]⟩

/-- From the trip of the RGB colour to the trip of the grey. -/
theorem lift {t : ColorType} (ht : t ≠ .undefined) (h8 : ¬ EightBit t) (hd : t ≠ .greyDeep) {V A : ℕ} (hV : V ≤ 255) {sp : Option Nat} {g c : Color}
    (hg : Color.construct .greyTrue [fin V] (fin A) sp = ok g) (hc : Color.construct .rgbTrue [fin V, fin V, fin V] (fin A) sp = ok c) (w : World) {c' g' : Color}
    (hT : Trip w c t .rgbTrue c') (hg' : Leaf.rgb_true_to_grey_true c' = ok g') : Trip w g t .greyTrue g' := by
  have n1 : t ≠ .rgbTrue := fun e => h8 (by subst e; simp [EightBit])
  have n2 : t ≠ .greyTrue := fun e => h8 (by subst e; simp [EightBit])
  have hcol : IsColor .rgbTrue c := by
    rw [Color.construct_rgbTrue, ok_inj] at hc
    subst hc; exact ⟨rfl, rfl, rfl, rfl, rfl⟩
  have hgcol : IsColor .greyTrue g := by
    rw [Color.construct_greyTrue, ok_inj] at hg
    subst hg; exact ⟨rfl, rfl, rfl, rfl, rfl⟩
  obtain ⟨d, e1, e2⟩ := stations (by simp) ht n1.symm hcol hT
  refine trip_of (by simp) ht n2.symm hgcol (d := d) ?_ ?_
  · rw [same_conv ht h8 hd hV hg hc, e1]
  · rw [way_back ht h8 hd, e2, ok_bind, hg']

variable [FineError] [IntExact]

/-- Multiplying and dividing by 255 changes little. -/
theorem times255 {x u e : ℝ} (h : |x - u| ≤ e) (u0 : 0 ≤ u) (u1 : u ≤ 1) (he : e ≤ 1e-5) : ∃ z, fin x * 255 / 255 = fin z ∧ |z - u| ≤ e + 3e-7 := by
  have e0 := (abs_nonneg _).trans h
  obtain ⟨y, ey, ny⟩ := nmul (⟨x, rfl, h⟩ : Near (fin x) u e) (near_fin 255) 1 255 (255 * e + 3.1e-5) (by rw [abs_of_nonneg u0]; exact u1) (by norm_num) (by linarith) (by linarith)
  have ny' : |y / 255 - u| ≤ e + 1.3e-7 := by
    rw [show y / 255 - u = (y - u * 255) / 255 by field_simp, abs_div, abs_of_pos (by norm_num : (0 : ℝ) < 255), div_le_iff₀ (by norm_num)]
    exact ny.trans (by linarith)
  obtain ⟨z, ez, nz⟩ := rounded (M := 1) ny' (by rw [abs_of_nonneg u0]; exact u1) (e + 3e-7) (by linarith) (by linarith)
  refine ⟨z, ?_, nz⟩
  rw [lit_def, ey, fin_div _ _ (by norm_num), ez]

theorem times255_clamp {x u e : ℝ} (h : |x - u| ≤ e) (u0 : 0 ≤ u) (u1 : u ≤ 1) (he : e ≤ 1e-5) : ∃ z, Color.clamp (fin x * 255 / 255) 1 0 = fin z ∧ |z - u| ≤ e + 3e-7 := by
  obtain ⟨z, ez, nz⟩ := times255 h u0 u1 he
  have hn : Near (fin z) u (e + 3e-7) := ⟨z, rfl, nz⟩
  rw [ez]
  exact hn.clamp01 u0 u1

theorem ends255 {x : ℝ} (h : x = 0 ∨ x = 1) : Color.clamp (fin x * 255 / 255) 1 0 = fin x := by
  have r255 : rnd (255 : ℝ) = fin 255 := by simpa using IntExact.rnd_int 255 (by norm_num)
  have r1 : rnd (1 : ℝ) = fin 1 := by simpa using IntExact.rnd_int 1 (by norm_num)
  simp only [lit_def, one_def, zero_def]
  rcases h with rfl | rfl
  · rw [fin_mul, zero_mul, FloatModel.rnd_zero, fin_div _ _ (by norm_num), zero_div, FloatModel.rnd_zero, Color.clamp_fin]; norm_num
  · rw [fin_mul, one_mul, r255, fin_div _ _ (by norm_num), div_self (by norm_num), r1, Color.clamp_fin]; norm_num

theorem ends {A : ℕ} (h : A = 0 ∨ A = 255) {x : ℝ} (ex : Color.clamp (fin A / 255) 1 0 = fin x) : x = 0 ∨ x = 1 := by
  have r1 : rnd (1 : ℝ) = fin 1 := by simpa using IntExact.rnd_int 1 (by norm_num)
  simp only [lit_def, one_def, zero_def] at ex
  rcases h with rfl | rfl
  · rw [fin_div _ _ (by norm_num), Nat.cast_zero, zero_div, FloatModel.rnd_zero, Color.clamp_fin, fin_inj] at ex
    left; rw [← ex]; norm_num
  · rw [fin_div _ _ (by norm_num), show ((255 : ℕ) : ℝ) / 255 = 1 by norm_num, r1, Color.clamp_fin, fin_inj] at ex
    right; rw [← ex]; norm_num

/-- The mean of three equal bytes. -/
theorem mean3 {V : ℕ} (hV : V ≤ 255) : (fin (V : ℝ) + fin (V : ℝ) + fin (V : ℝ)) / 3 = fin (V : ℝ) := by
  have i1 : ∀ n : ℕ, n ≤ 765 → rnd (n : ℝ) = fin n := fun n hn => by
    have := IntExact.rnd_int (n : ℤ) (by rw [abs_of_nonneg (by positivity)]; omega)
    simpa using this
  rw [fin_add, show (V : ℝ) + V = ((V + V : ℕ) : ℝ) by push_cast; ring, i1 _ (by omega), fin_add, show ((V + V : ℕ) : ℝ) + V = ((V + V + V : ℕ) : ℝ) by push_cast; ring, i1 _ (by omega), lit_def,
    fin_div _ _ (by norm_num), show ((V + V + V : ℕ) : ℝ) / 3 = V by push_cast; ring, i1 _ (by omega)]

/-- The grey of an 8-bit RGB colour with three equal channels. -/
theorem mean {V : ℕ} (hV : V ≤ 255) (a : Fl) (sp : Option Nat) : Leaf.rgb_true_to_grey_true ⟨.rgbTrue, .rgbTrue, [fin V, fin V, fin V], a, 255, 0, sp⟩ =
    ok ⟨.greyTrue, .greyTrue, [fin V], Color.clamp (a * 255 / 255) 1 0, 255, 0, sp⟩ := by
  simp only [Leaf.rgb_true_to_grey_true, Conv.get3_0, Conv.get3_1, Conv.get3_2, ok_bind, Color.construct_greyTrue, Color.mkGreyTrue, mean3 hV, HsiFine.byte_clamp hV]
  rfl

theorem unit {A : ℕ} (hA : A ≤ 255) : (0 : ℝ) ≤ A / 255 ∧ (A : ℝ) / 255 ≤ 1 := by
  have A1 : (A : ℝ) ≤ 255 := by exact_mod_cast hA
  exact ⟨by positivity, by rw [div_le_one (by norm_num)]; exact A1⟩

end

end GreyTrip

open GreyTrip FineXyy LabSpec

section
variable [FloatModel] [FineError] [IntExact]

/-- **C183** Where the 8-bit RGB colour with three equal channels survives, the 8-bit grey survives: its level comes back exactly, its opacity up to a millionth, and exactly if it is opaque or transparent. -/
theorem C183_transfer (t : ColorType) (ht : t ≠ .undefined) (h8 : ¬ EightBit t) (hd : t ≠ .greyDeep) (w : World) (V A : ℕ) (hV : V ≤ 255) (hA : A ≤ 255) (sp : Option Nat)
    (g c : Color) (hg : Color.construct .greyTrue [fin V] (fin A) sp = ok g) (hc : Color.construct .rgbTrue [fin V, fin V, fin V] (fin A) sp = ok c) (hT : Trip w c t .rgbTrue c) :
    ∃ a, Trip w g t .greyTrue { g with malpha := fin a } ∧ |a - A / 255| ≤ 1 / 1000000 ∧ (A = 0 ∨ A = 255 → Trip w g t .greyTrue g) := by
  obtain ⟨x, ex, -⟩ := byte_frac hA
  obtain ⟨a, ea, na⟩ := times255_clamp (byte_fine hA ex.symm) (unit hA).1 (unit hA).2 (by norm_num)
  have e := hc
  rw [Color.construct_rgbTrue, ok_inj] at e
  have hg' := hg
  rw [Color.construct_greyTrue, ok_inj] at hg'
  have h := lift ht h8 hd hV hg hc w hT (g' := { g with malpha := fin a }) (by
    rw [← e, ← hg']
    simp only [Color.mkRgbTrue, Color.mkGreyTrue, HsiFine.byte_clamp hV]
    rw [mean hV, ex, ea])
  refine ⟨a, h, na.trans (by norm_num), fun hh => ?_⟩
  have e' : fin a = g.malpha := by
    rw [← ea, ends255 (ends hh ex), ← ex, ← hg']; rfl
  rwa [e'] at h

/-- **C183** 8-bit greys survive RGB_DEEP, CMYK, HSV, HSI, HCY and, unless they are black, HSL. -/
theorem C183_partial (t : ColorType) (ht : t ∈ [ColorType.rgbDeep, .cmyk, .hsv, .hsl, .hsi, .hcy]) (w : World) (V A : ℕ) (hV : V ≤ 255) (hA : A ≤ 255) (sp : Option Nat) (hb : t = .hsl → 0 < V)
    (g : Color) (hg : Color.construct .greyTrue [fin V] (fin A) sp = ok g) :
    ∃ a, Trip w g t .greyTrue { g with malpha := fin a } ∧ |a - A / 255| ≤ 1 / 1000000 ∧ (A = 0 ∨ A = 255 → Trip w g t .greyTrue g) := by
  obtain ⟨c, hc⟩ : ∃ c, Color.construct .rgbTrue [fin V, fin V, fin V] (fin A) sp = ok c := ⟨_, Color.construct_rgbTrue _ _ _ _ _⟩
  simp only [List.mem_cons, List.not_mem_nil, or_false] at ht
  rcases ht with rfl | rfl | rfl | rfl | rfl | rfl
  · refine C183_transfer .rgbDeep (by simp) (by simp [EightBit]) (by simp) w V A hV hA sp g c hg hc ?_
    obtain ⟨hcol, d, r, g, b, h1, hd, -, ⟨n1, n2, n3⟩, hback⟩ := byte_deep V V V A hV hV hV hA sp c hc
    refine trip_of (s := .rgbTrue) (d := d) (by decide) (by decide) (by decide) hcol h1 ?_
    have := hback r g b (n1.trans (by norm_num)) (n2.trans (by norm_num)) (n3.trans (by norm_num))
    rw [← hd.comps] at this
    exact this
  · exact C183_transfer .cmyk (by simp) (by simp [EightBit]) (by simp) w V A hV hA sp g c hg hc (C125_bytes w V V V A hV hV hV hA sp c hc)
  · exact C183_transfer .hsv (by simp) (by simp [EightBit]) (by simp) w V A hV hA sp g c hg hc (C126_bytes_partial w V V V A hV hV hV hA sp c hc (by simp))
  · have := hb rfl
    exact C183_transfer .hsl (by simp) (by simp [EightBit]) (by simp) w V A hV hA sp g c hg hc (C127_bytes_partial w V V V A hV hV hV hA sp c hc (by omega) (by simp))
  · exact C183_transfer .hsi (by simp) (by simp [EightBit]) (by simp) w V A hV hA sp g c hg hc (C182_grey w V A hV hA sp c hc)
  · exact C183_transfer .hcy (by simp) (by simp [EightBit]) (by simp) w V A hV hA sp g c hg hc ((C162_bytes w V V V A hV hV hV hA sp c hc).mpr (by simp))

/-- **C183** 8-bit greys survive GREY_DEEP, with every 8-bit opacity. -/
theorem C183_deep (w : World) (V A : ℕ) (hV : V ≤ 255) (hA : A ≤ 255) (sp : Option Nat) (g : Color) (hg : Color.construct .greyTrue [fin V] (fin A) sp = ok g) : Trip w g .greyDeep .greyTrue g := by
  rw [Color.construct_greyTrue, ok_inj] at hg
  obtain ⟨x, ex, -⟩ := byte_frac hA
  obtain ⟨z, ez, nz⟩ := times255 (byte_fine hA ex.symm) (unit hA).1 (unit hA).2 (by norm_num)
  obtain ⟨v, ev, nv⟩ := byte_frac hV
  have g0 : g.getComponent 0 = ok (fin V) := Conv.getComponent_of (by norm_num) (by rw [← hg]; simp only [Color.mkGreyTrue, HsiFine.byte_clamp hV]; rfl)
  have ga : g.alpha / 255 = fin z := by
    rw [← hg, ← ez, ← ex]
    simp only [Color.alpha, Color.mkGreyTrue, Color.scalesAlpha, if_true]
  have gs : g.space = sp := by rw [← hg]; rfl
  refine trip_of (s := .greyTrue) (d := ⟨.greyDeep, .greyDeep, [fin v], fin z, 1, 0, sp⟩) (by decide) (by decide) (by decide) (by rw [← hg]; exact ⟨rfl, rfl, rfl, rfl, rfl⟩) ?_ ?_
  · change Leaf.grey_true_to_grey_deep g = _
    simp only [Leaf.grey_true_to_grey_deep, g0, ok_bind, ga, gs, Color.construct_greyDeep, Color.mkGreyDeep, ev]
  · change Leaf.grey_deep_to_grey_true _ = _
    have d0 : (⟨.greyDeep, .greyDeep, [fin v], fin z, 1, 0, sp⟩ : Color).getComponent 0 = ok (fin v) := Conv.getComponent_of (by norm_num) rfl
    have d1 : (⟨.greyDeep, .greyDeep, [fin v], fin z, 1, 0, sp⟩ : Color).alpha = fin z := by simp [Color.alpha, Color.scalesAlpha]
    simp only [Leaf.grey_deep_to_grey_true, d0, d1, ok_bind, back_to_byte hV (nv.trans (by norm_num)), back_to_byte hA (nz.trans (by norm_num)), Color.construct_greyTrue, hg]

/-- **C183** 8-bit greys survive RGB_TRUE. -/
theorem C183_true (w : World) (V A : ℕ) (hV : V ≤ 255) (hA : A ≤ 255) (sp : Option Nat) (g : Color) (hg : Color.construct .greyTrue [fin V] (fin A) sp = ok g) :
    ∃ a, Trip w g .rgbTrue .greyTrue { g with malpha := fin a } ∧ |a - A / 255| ≤ 1 / 1000000 ∧ (A = 0 ∨ A = 255 → Trip w g .rgbTrue .greyTrue g) := by
  rw [Color.construct_greyTrue, ok_inj] at hg
  obtain ⟨x, ex, -⟩ := byte_frac hA
  obtain ⟨y, ey, ny⟩ := times255_clamp (byte_fine hA ex.symm) (unit hA).1 (unit hA).2 (by norm_num)
  obtain ⟨a, ea, na⟩ := times255_clamp ny (unit hA).1 (unit hA).2 (by norm_num)
  have g0 : g.getComponent 0 = ok (fin V) := Conv.getComponent_of (by norm_num) (by rw [← hg]; simp only [Color.mkGreyTrue, HsiFine.byte_clamp hV]; rfl)
  have ga : Color.clamp (g.alpha / 255) 1 0 = fin y := by
    rw [← hg, ← ey, ← ex]
    simp only [Color.alpha, Color.mkGreyTrue, Color.scalesAlpha, if_true]
  have gs : g.space = sp := by rw [← hg]; rfl
  have hT : Trip w g .rgbTrue .greyTrue { g with malpha := fin a } := by
    refine trip_of (s := .greyTrue) (d := ⟨.rgbTrue, .rgbTrue, [fin V, fin V, fin V], fin y, 255, 0, sp⟩) (by decide) (by decide) (by decide) (by rw [← hg]; exact ⟨rfl, rfl, rfl, rfl, rfl⟩) ?_ ?_
    · change Leaf.grey_true_to_rgb_true g = _
      simp only [Leaf.grey_true_to_rgb_true, g0, ok_bind, gs, Color.constructGrey, Color.construct_rgbTrue, Color.mkRgbTrue, ga, HsiFine.byte_clamp hV]
    · change Leaf.rgb_true_to_grey_true _ = _
      rw [mean hV, ea, ← hg]
      simp only [Color.mkGreyTrue, HsiFine.byte_clamp hV]
  refine ⟨a, hT, na.trans (by norm_num), fun hh => ?_⟩
  have hx := ends hh ex
  have hy : y = x := by rw [ends255 hx, fin_inj] at ey; exact ey.symm
  have e' : fin a = g.malpha := by
    rw [← ea, hy, ends255 hx, ← ex, ← hg]; rfl
  rwa [e'] at hT

/-- **C183 violated** 8-bit black comes back from HSL fully transparent. -/
theorem C183_violated (w : World) (A : ℕ) (hA0 : 0 < A) (hA : A ≤ 255) (sp : Option Nat) (g : Color) (hg : Color.construct .greyTrue [fin (0 : ℕ)] (fin A) sp = ok g) :
    Trip w g .hsl .greyTrue { g with malpha := fin 0 } ∧ ¬ Trip w g .hsl .greyTrue g := by
  obtain ⟨c, hc⟩ : ∃ c, Color.construct .rgbTrue [fin (0 : ℕ), fin (0 : ℕ), fin (0 : ℕ)] (fin A) sp = ok c := ⟨_, Color.construct_rgbTrue _ _ _ _ _⟩
  obtain ⟨hcol, d, r, gg, b, h1, hd, ⟨er, eg, eb⟩, -, -⟩ := byte_deep 0 0 0 A (by norm_num) (by norm_num) (by norm_num) hA sp c hc
  have z : Color.clamp (fin ((0 : ℕ) : ℝ) / 255) 1 0 = fin 0 := by
    simp only [lit_def, one_def, zero_def]
    rw [fin_div _ _ (by norm_num), Nat.cast_zero, zero_div, FloatModel.rnd_zero, Color.clamp_fin]; norm_num
  rw [z, fin_inj] at er eg eb
  subst er eg eb
  have hsp : d.space = sp := by
    rw [Color.construct_rgbTrue, ok_inj] at hc
    subst hc
    simp only [Leaf.rgb_true_to_rgb_deep, Color.mkRgbTrue, Conv.get3_0, Conv.get3_1, Conv.get3_2, ok_bind, Color.construct_rgbDeep, ok_inj] at h1
    rw [← h1]; rfl
  have h2 : Leaf.rgb_deep_to_hsl d = ok (obj .hsl 0 0 0 d.malpha d.space) := by
    rw [rgb_eq hd]
    simp only [Leaf.rgb_deep_to_hsl, obj_0, obj_1, obj_2, obj_space, obj_malpha, obj_alpha _ _ _ _ _ _ (rfl : Color.scalesAlpha .rgbDeep = false), ok_bind, fmin_fin, fmax_fin,
      feq_fin, Color.construct_hsl, max_self, min_self, if_true]
    rw [mkHue_grey _ _ _ ⟨rfl, rfl⟩ le_rfl (by norm_num)]
  have h3 : Leaf.hsl_to_rgb_deep (obj .hsl 0 0 0 d.malpha d.space) = ok (obj .rgbDeep 0 0 0 0 d.space) := by
    simp only [Leaf.hsl_to_rgb_deep, obj_0, obj_1, obj_2, obj_space, ok_bind, zero_def, feq_fin, if_true, Color.constructGrey, Color.construct_rgbDeep]
    rw [mkRgb_obj _ _ le_rfl (by norm_num) le_rfl (by norm_num) le_rfl (by norm_num)]
  have z2 : fin 0 * (255 : Fl) = fin 0 := by rw [lit_def, fin_mul, zero_mul, FloatModel.rnd_zero]
  have z3 : Fl.round (fin 0) = fin 0 := by norm_num [roundR]
  have zc : Color.clamp (fin 0) 255 0 = fin ((0 : ℕ) : ℝ) := by simpa using HsiFine.byte_clamp (n := 0) (by norm_num)
  have h4 : Leaf.rgb_deep_to_rgb_true (obj .rgbDeep 0 0 0 0 d.space) = ok ⟨.rgbTrue, .rgbTrue, [fin (0 : ℕ), fin (0 : ℕ), fin (0 : ℕ)], fin 0, 255, 0, sp⟩ := by
    simp only [Leaf.rgb_deep_to_rgb_true, obj_0, obj_1, obj_2, obj_space, obj_malpha, obj_alpha _ _ _ _ _ _ (rfl : Color.scalesAlpha .rgbDeep = false), ok_bind, Color.construct_rgbTrue]
    rw [zero_def, z2, z3, hsp]
    simp only [Color.mkRgbTrue]
    have za : Color.clamp (fin 0 / 255) 1 0 = fin 0 := by simpa using z
    rw [zc, za, zero_def]
  have hg' := hg
  rw [Color.construct_greyTrue, ok_inj] at hg'
  have hT : Trip w g .hsl .greyTrue { g with malpha := fin 0 } := by
    refine lift (t := .hsl) (by simp) (by simp [EightBit]) (by simp) (V := 0) (by norm_num) hg hc w
      (c' := ⟨.rgbTrue, .rgbTrue, [fin (0 : ℕ), fin (0 : ℕ), fin (0 : ℕ)], fin 0, 255, 0, sp⟩) ?_ ?_
    · refine trip_of (s := .rgbTrue) (by decide) (by decide) (by decide) hcol (d := obj .hsl 0 0 0 d.malpha d.space) ?_ ?_
      · show (Leaf.rgb_true_to_rgb_deep c >>= Leaf.rgb_deep_to_hsl) = _
        rw [h1, ok_bind, h2]
      · show (Leaf.hsl_to_rgb_deep _ >>= Leaf.rgb_deep_to_rgb_true) = _
        rw [h3, ok_bind, h4]
    · rw [mean (by norm_num), ends255 (Or.inl rfl), ← hg']
      simp only [Color.mkGreyTrue, HsiFine.byte_clamp (show 0 ≤ 255 by norm_num)]
  refine ⟨hT, fun hT' => ?_⟩
  have e := hT.unique hT'
  obtain ⟨x, ex, -⟩ := byte_frac hA
  have nx := byte_fine hA ex.symm
  have e' : fin 0 = g.malpha := congrArg Color.malpha e
  rw [← hg'] at e'
  simp only [Color.mkGreyTrue] at e'
  rw [ex, fin_inj] at e'
  have : (1 : ℝ) ≤ A := by exact_mod_cast hA0
  rw [← e', abs_le] at nx
  linarith

end

section
variable [FloatModel] [IntExact] [FineError] [StdSort]

/-- **C183** 8-bit greys survive XYZ, LAB and xyY in the preset spaces in which 8-bit RGB colours do. -/
theorem C183_cie (t : ColorType) (p : SpacePreset) (w : World) (ws : WhiteStore) (s q m : Nat) (st : PartStore) (next : Nat) (hs : p.create ws q m = ok (w.spaces s))
    (hq : w.whites q = p.white.create) (hg : GammaPreset.sRGB.create st next = (w.parts, ok (w.gammas m))) (ht : t = .xyz ∧ p ≠ .cieRGB ∨ t = .lab ∧ Fits p ∨ t = .xyy ∧ Lit p)
    (V A : ℕ) (hV : V ≤ 255) (hA : A ≤ 255) (c : Color) (hc : Color.construct .greyTrue [fin V] (fin A) (some s) = ok c) :
    ∃ a, Trip w c t .greyTrue { c with malpha := fin a } ∧ |a - A / 255| ≤ 1 / 1000000 ∧ (A = 0 ∨ A = 255 → Trip w c t .greyTrue c) := by
  obtain ⟨b, hb⟩ : ∃ c, Color.construct .rgbTrue [fin V, fin V, fin V] (fin A) (some s) = ok c := ⟨_, Color.construct_rgbTrue _ _ _ _ _⟩
  rcases ht with ⟨rfl, hp⟩ | ⟨rfl, hp⟩ | ⟨rfl, hp⟩
  · exact C183_transfer .xyz (by simp) (by simp [EightBit]) (by simp) w V A hV hA _ c b hc hb (C147_bytes p hp .sRGB (.inl rfl) w ws s q m st next hs hg V V V A hV hV hV hA b hb)
  · exact C183_transfer .lab (by simp) (by simp [EightBit]) (by simp) w V A hV hA _ c b hc hb (C159_bytes p hp w ws s q m st next hs hq hg V V V A hV hV hV hA b hb)
  · exact C183_transfer .xyy (by simp) (by simp [EightBit]) (by simp) w V A hV hA _ c b hc hb (C160_bytes p hp .sRGB (.inl rfl) w ws s q m st next hs hq hg V V V A hV hV hV hA b hb)

end

/-- A half transparent middle grey goes to GREY_DEEP and HSV and back. -/
example (w : World) : letI := Binary32.binary32
    Trip w (Color.mkGreyTrue (fin (128 : ℕ)) (fin (127 : ℕ)) none) .greyDeep .greyTrue (Color.mkGreyTrue (fin (128 : ℕ)) (fin (127 : ℕ)) none) :=
  letI := Binary32.binary32
  letI := Binary32.binary32_int
  letI := Binary32.binary32_fine
  C183_deep w 128 127 (by norm_num) (by norm_num) none _ (Color.construct_greyTrue _ _ _)
example (w : World) : letI := Binary32.binary32
    Trip w (Color.mkGreyTrue (fin (77 : ℕ)) (fin (255 : ℕ)) none) .hsv .greyTrue (Color.mkGreyTrue (fin (77 : ℕ)) (fin (255 : ℕ)) none) :=
  letI := Binary32.binary32
  letI := Binary32.binary32_int
  letI := Binary32.binary32_fine
  let ⟨_, _, _, h⟩ := C183_partial .hsv (by simp) w 77 255 (by norm_num) (by norm_num) none (by simp) _ (Color.construct_greyTrue _ _ _)
  h (.inr rfl)
example (w : World) : letI := Binary32.binary32
    ¬ Trip w (Color.mkGreyTrue (fin (0 : ℕ)) (fin (255 : ℕ)) none) .hsl .greyTrue (Color.mkGreyTrue (fin (0 : ℕ)) (fin (255 : ℕ)) none) :=
  letI := Binary32.binary32
  letI := Binary32.binary32_int
  letI := Binary32.binary32_fine
  (C183_violated w 255 (by norm_num) (by norm_num) none _ (Color.construct_greyTrue _ _ _)).2
/-- A grey of the sRGB colour space goes to XYZ and back. -/
example [StdSort] : letI := Binary32.binary32
    ∃ w : World, ∃ ws q m st next, SpacePreset.sRGB.create ws q m = ok (w.spaces 0) ∧ GammaPreset.sRGB.create st next = (w.parts, ok (w.gammas m)) ∧
      Trip w (Color.mkGreyTrue (fin (200 : ℕ)) (fin (255 : ℕ)) (some 0)) .xyz .greyTrue (Color.mkGreyTrue (fin (200 : ℕ)) (fin (255 : ℕ)) (some 0)) := by
  letI := Binary32.binary32
  letI := Binary32.binary32_int
  letI := Binary32.binary32_fine
  obtain ⟨s, hs, -⟩ := Fine.linear_trip .sRGB (by decide) (fun _ => SpacePreset.sRGB.white.create) 0 0
  have hst := fine_strict .sRGB (.inl rfl)
  obtain ⟨g, hg, -⟩ := GammaPreset.create_eval_of .sRGB hst.1 hst.2 (fun _ => ⟨none, 1⟩) 0
  let w : World := ⟨(GammaPreset.sRGB.create (fun _ => ⟨none, 1⟩) 0).1, fun _ => g, fun _ => SpacePreset.sRGB.white.create, fun _ => s⟩
  have hg' : GammaPreset.sRGB.create (fun _ => ⟨none, 1⟩) 0 = (w.parts, ok (w.gammas 0)) := Prod.ext rfl hg
  refine ⟨w, _, 0, 0, fun _ => ⟨none, 1⟩, 0, hs, hg', ?_⟩
  obtain ⟨-, -, -, h⟩ := C183_cie .xyz .sRGB w _ 0 0 0 _ 0 hs rfl hg' (.inl ⟨rfl, by decide⟩) 200 255 (by norm_num) (by norm_num) _ (Color.construct_greyTrue _ _ _)
  exact h (.inr rfl)
