import Verif.Props.Blends

/-!
# Validity and symmetry of blending (C58, C59)
-/

open Outcome Fl Prog ObjectSpec ConvSpec Hue BlendSpec

namespace BlendSpec

/-- Modes whose formula can exceed 1. -/
def Mode.Exceeds : Mode → Prop
  | .linear_dodge => True
  | .plus_lighter => True
  | .vivid_light => True
  | .linear_light => True
  | .divide => True
  | .custom _ => True
  | _ => False

/-- Modes that do not depend on which colour is the source, whatever the rounding. -/
inductive Mode.Commutative : Mode → Prop
  | multiply : Commutative .multiply
  | screen : Commutative .screen
  | darken : Commutative .darken
  | lighten : Commutative .lighten
  | linear_dodge : Commutative .linear_dodge
  | linear_burn : Commutative .linear_burn
  | plus_lighter : Commutative .plus_lighter
  | plus_darker : Commutative .plus_darker

/-- Further modes that do not depend on which colour is the source, in exact arithmetic. -/
inductive Mode.CommutativeExact : Mode → Prop
  | difference : CommutativeExact .difference
  | exclusion : CommutativeExact .exclusion
  | hard_mix : CommutativeExact .hard_mix

/-- Modes for which an opaque-independent white source changes nothing. -/
inductive Mode.WhiteNeutral : Mode → Prop
  | multiply : WhiteNeutral .multiply
  | darken : WhiteNeutral .darken

inductive Mode.WhiteAbsorbing : Mode → Prop
  | screen : WhiteAbsorbing .screen
  | lighten : WhiteAbsorbing .lighten

inductive Mode.BlackNeutral : Mode → Prop
  | screen : BlackNeutral .screen
  | lighten : BlackNeutral .lighten
  | linear_dodge : BlackNeutral .linear_dodge
  | difference : BlackNeutral .difference

inductive Mode.BlackAbsorbing : Mode → Prop
  | multiply : BlackAbsorbing .multiply
  | darken : BlackAbsorbing .darken

/-- The number can be represented as a `float`. -/
def Representable [FloatModel] (x : ℝ) : Prop := rnd x = fin x

end BlendSpec

section
variable [FloatModel]

/-! ## C58: valid results -/

section
variable [ExactModel]

omit [FloatModel] [ExactModel] in
theorem Blend.formula_le_one (m : Mode) (hm : ¬ m.Exceeds) (δ : ℝ) (i : Nat) {s d : ℝ} (s0 : 0 ≤ s) (s1 : s ≤ 1) (d0 : 0 ≤ d) (d1 : d ≤ 1) : m.formula δ i s d ≤ 1 := by
  have p1 := mul_nonneg s0 d0
  have p2 := mul_nonneg (sub_nonneg.mpr s1) (sub_nonneg.mpr d1)
  have p3 := mul_nonneg s0 (sub_nonneg.mpr d1)
  have p4 := mul_nonneg d0 (sub_nonneg.mpr s1)
  cases m <;> simp only [Mode.Exceeds, not_true_eq_false] at hm <;> simp only [Mode.formula] <;> try split_ifs
  all_goals first
    | assumption
    | exact zero_le_one
    | exact le_refl _
    | exact min_le_right _ _
    | exact (min_le_left _ _).trans s1
    | exact (min_le_left _ _).trans d1
    | exact max_le s1 d1
    | exact max_le d1 (by linarith)
    | exact abs_le.mpr ⟨by linarith, by linarith⟩
    | nlinarith

/-- C58 for RGB_DEEP colours of any opacity and all modes but linear_dodge, plus_lighter, vivid_light, linear_light, divide and custom functions: the components of the
result lie in 0..1.  Whichever regions are used. -/
theorem C58_bounded_partial (m : Mode) (hm : ¬ m.Exceeds) (w : World) (us ud : Bool) (s d : Color) (s0 s1 s2 sa d0 d1 d2 da : ℝ) (hs : IsPixel s s0 s1 s2 sa)
    (hd : IsPixel d d0 d1 d2 da) (hsp : s.space = d.space) : ∃ r, Yields (m.run us ud) w s d r ∧ UnitComps r := by
  have hf : m.Finite := by cases m <;> first | trivial | exact absurd trivial hm
  refine ⟨_, Blend.mode_exact m hf w us ud s d s0 s1 s2 sa d0 d1 d2 da hs hd hsp, ?_⟩
  have w0 : ∀ b, 0 ≤ Blend.weight b := by intro b; cases b <;> simp [Blend.weight]
  have e1 := sub_nonneg.mpr hs.a1
  have e2 := sub_nonneg.mpr hd.a1
  have A : 0 ≤ sa * (1 - da) := mul_nonneg hs.a0 e2
  have D : 0 ≤ da * (1 - sa) := mul_nonneg hd.a0 e1
  have B : 0 ≤ sa * da := mul_nonneg hs.a0 hd.a0
  have A' := mul_nonneg A (w0 us)
  have D' := mul_nonneg D (w0 ud)
  have key : ∀ i {x y : ℝ}, 0 ≤ x → x ≤ 1 → 0 ≤ y → y ≤ 1 →
      InRange 0 1 (fin (Blend.quot (Blend.alphaOf us ud true sa da) (Blend.unit (Blend.comb us ud sa da x y (m.formula (sa - da) i x y))))) := by
    intro i x y x0 x1 y0 y1
    have v1 := Blend.formula_le_one m hm (sa - da) i x0 x1 y0 y1
    have hle : Blend.comb us ud sa da x y (m.formula (sa - da) i x y) ≤ Blend.alphaOf us ud true sa da := by
      simp only [Blend.comb, Blend.alphaOf, ← mul_assoc]
      have h1 := mul_le_mul_of_nonneg_left x1 A'
      have h2 := mul_le_mul_of_nonneg_left y1 D'
      have h3 := mul_le_mul_of_nonneg_left v1 B
      have : Blend.weight true = 1 := rfl
      rw [this]
      linarith
    have ha : 0 ≤ Blend.alphaOf us ud true sa da := by
      simp only [Blend.alphaOf]
      have := mul_nonneg B (w0 true)
      linarith
    rw [inRange_fin]
    have hu := Blend.unit_range (Blend.comb us ud sa da x y (m.formula (sa - da) i x y))
    have hua : Blend.unit (Blend.comb us ud sa da x y (m.formula (sa - da) i x y)) ≤ Blend.alphaOf us ud true sa da := max_le ((min_le_left _ _).trans hle) ha
    unfold Blend.quot
    split_ifs with hz
    · exact hu
    · have hpos := lt_of_le_of_ne ha (Ne.symm hz)
      exact ⟨div_nonneg hu.1 ha, (div_le_one hpos).mpr hua⟩
  intro x hx
  simp only [obj, List.mem_cons, List.not_mem_nil, or_false] at hx
  rcases hx with rfl | rfl | rfl
  · exact key 0 hs.rgb.r0 hs.rgb.r1 hd.rgb.r0 hd.rgb.r1
  · exact key 1 hs.rgb.g0 hs.rgb.g1 hd.rgb.g0 hd.rgb.g1
  · exact key 2 hs.rgb.b0 hs.rgb.b1 hd.rgb.b0 hd.rgb.b1

/-- C58 for two opaque RGB_DEEP colours, all modes. -/
theorem C58_opaque_partial (m : Mode) (hm : m.Finite) (w : World) (us ud : Bool) (s d : Color) (s0 s1 s2 d0 d1 d2 : ℝ) (hs : IsPixel s s0 s1 s2 1)
    (hd : IsPixel d d0 d1 d2 1) (hsp : s.space = d.space) : ∃ r, Yields (m.run us ud) w s d r ∧ UnitComps r := by
  refine ⟨_, C57_opaque m hm w us ud s d s0 s1 s2 d0 d1 d2 hs hd hsp, ?_⟩
  have key : ∀ x : ℝ, InRange 0 1 (fin (limit x)) := fun x => inRange_fin.mpr ⟨le_max_left _ _, max_le zero_le_one (min_le_left _ _)⟩
  intro x hx
  simp only [obj, List.mem_cons, List.not_mem_nil, or_false] at hx
  rcases hx with rfl | rfl | rfl <;> exact key _

/-- Modes excluded from `C58_bounded_partial`. -/
inductive BlendSpec.Mode.Overflows : Mode → ℝ → Prop
  | linear_dodge : Overflows .linear_dodge 1
  | plus_lighter : Overflows .plus_lighter 1
  | vivid_light : Overflows .vivid_light 0.25
  | linear_light : Overflows .linear_light 1
  | divide : Overflows .divide 0.5

/-- C58 fails for the five named modes: blending half-transparent greys produces a component above 1. -/
theorem C58_violated (m : Mode) (v : ℝ) (hm : m.Overflows v) (w : World) (sp : Option Nat) : ∃ (r : Color) (x : ℝ),
    Yields (m.run true true) w (obj .rgbDeep v v v (fin 0.5) sp) (obj .rgbDeep 1 1 1 (fin 0.5) sp) r ∧ r.comps[0]? = some (fin x) ∧ 1 < x := by
  have hv : 0 ≤ v ∧ v ≤ 1 := by cases hm <;> norm_num
  have hf : m.Finite := by cases hm <;> trivial
  obtain ⟨r0, r1, r2, h, e0, -, -⟩ := C57_translucent m hf w _ _ v v v 0.5 1 1 1 0.5 (isPixel_obj sp hv hv hv (by norm_num))
    (isPixel_obj sp (by norm_num) (by norm_num) (by norm_num) (by norm_num)) rfl (by norm_num)
  refine ⟨_, r0, h, rfl, ?_⟩
  cases hm <;> norm_num [Mode.formula, limit] at e0 <;> linarith

/-- Case: half-transparent grey with exclusion. -/
example (w : World) : ∃ r, Yields (ColorBlend.exclusion true false) w (obj .rgbDeep 0.5 0.5 0.5 (fin 0.5) none) (obj .rgbDeep 1 1 1 (fin 0.5) none) r ∧ UnitComps r :=
  C58_bounded_partial .exclusion id w true false _ _ 0.5 0.5 0.5 0.5 1 1 1 0.5 (isPixel_obj none (by norm_num) (by norm_num) (by norm_num) (by norm_num))
    (isPixel_obj none (by norm_num) (by norm_num) (by norm_num) (by norm_num)) rfl

end

/-- C58 for sources of other types, all modes, any rounding: converting the result back limits the components to the range of the type. -/
theorem C58_any_type (m : Mode) (w : World) (us ud : Bool) (ts td : ColorType) (hts : ts ≠ .undefined ∧ ts ≠ .lchAb ∧ ts ≠ .lchUv ∧ ts ≠ .rgbDeep) (htd : td ≠ .undefined)
    (s d : Color) (hs : IsColor ts s) (hd : IsColor td d) (hsp : s.space = d.space) (hw : Cie ts ∨ Cie td → w.Usable s.space) :
    ∃ r, Yields (m.run us ud) w s d r ∧ IsColor ts r ∧ ComponentsInRange r := by
  obtain ⟨s', d', r, r', -, -, -, hr, v3, hy, hc, -⟩ := C57_any_type_total m w us ud ts td ⟨hts.1, hts.2.1, hts.2.2.1⟩ htd s d hs hd hsp hw
  refine ⟨r', hy, hc, ?_⟩
  have := (converts_iff (by simp) hts.1 hr).mp v3
  rw [Val.to, if_neg (Ne.symm hts.2.2.2)] at this
  exact ((Conv.good_direct _ _ (by simp) hts.1 (Ne.symm hts.2.2.2)).result _ _ _ this).rng

/-- Hue, chroma and luma are taken from the source or from the destination. -/
def BlendSpec.HueMode.fromSource : HueMode → Nat → Bool
  | .hue, 0 => true
  | .saturation, 1 => true
  | .color, 0 => true
  | .color, 1 => true
  | .luminosity, 2 => true
  | _, _ => false

/-- C58 and C88 for hue, saturation, color and luminosity, any rounding and all types but LCH sources: the result is a new colour of the type of the source with all
components in range and the colour space of the source; it is the conversion of an HCY colour whose hue, chroma and luma come from the source or the destination, as the name of the mode says.
No existing object changes. -/
theorem C58_hue_modes (m : HueMode) (us ud : Bool) (w : World) (ts td : ColorType) (hts : ts ≠ .undefined ∧ ts ≠ .lchAb ∧ ts ≠ .lchUv) (htd : td ≠ .undefined)
    (s d : Color) (hs : IsColor ts s) (hd : IsColor td d) (hws : Cie ts → w.Usable s.space) (hwd : Cie td → w.Usable d.space) :
    ∃ s' d' r r' sh sc sl dh dc dl, Converts w s .hcy s' ∧ Converts w d .hcy d' ∧ s'.comps = [sh, sc, sl] ∧ d'.comps = [dh, dc, dl] ∧
      Color.construct .hcy [if m.fromSource 0 then sh else dh, if m.fromSource 1 then sc else dc, if m.fromSource 2 then sl else dl] s'.alpha s.space = ok r ∧
      Converts w r ts r' ∧ Yields (m.run us ud) w s d r' ∧ IsColor ts r' ∧ ComponentsInRange r' ∧ r'.space = s.space := by
  have hn : ¬ Cie .hcy := by simp [Cie]
  obtain ⟨s', e1, c1, p1⟩ := val_to_total hts.1 (t := .hcy) (by simp) hs (w := w) (fun h _ => hws (h.elim id (fun h => absurd h hn)))
  obtain ⟨d', e2, c2, p2⟩ := val_to_total htd (t := .hcy) (by simp) hd (w := w) (fun h _ => hwd (h.elim id (fun h => absurd h hn)))
  obtain ⟨sh, sc, sl, es⟩ := Conv.isColor_three (by rfl) c1
  obtain ⟨dh, dc, dl, ed⟩ := Conv.isColor_three (by rfl) c2
  obtain ⟨r, hr⟩ := Conv.construct_total .hcy (vs := [if m.fromSource 0 then sh else dh, if m.fromSource 1 then sc else dc, if m.fromSource 2 then sl else dl]) s'.alpha s.space rfl
  have hfr := Conv.construct_result (by simp) (by rfl) hr
  obtain ⟨r', e3, c3, p3⟩ := val_to_total (s := .hcy) (by simp) hts.1 hfr.col (w := w)
    (fun h _ => by rw [hfr.space]; exact hws (h.elim (fun h => absurd h hn) id))
  refine ⟨s', d', r, r', sh, sc, sl, dh, dc, dl, (converts_iff hts.1 (by simp) hs).mpr e1, (converts_iff htd (by simp) hd).mpr e2, by rw [es], by rw [ed], hr,
    (converts_iff (by simp) hts.1 hfr.col).mpr e3, ?_, c3, ?_, by rw [p3, hfr.space]⟩
  · intro h i j hw hi hj
    subst hw
    obtain ⟨q1, g1, a1, k1⟩ := call_to hts.1 (by simp) hs hi e1
    have f1 := k1.frame (by rintro ⟨-, hc⟩; exact hn hc)
    obtain ⟨q2, g2, a2, k2⟩ := call_to (t := .hcy) htd (by simp) hd (f1.2 _ _ hj) (k1.world ▸ e2)
    have f2 := k2.frame (by rintro ⟨-, hc⟩; exact hn hc)
    set g3 : Heap := ⟨g2.world, g2.colors ++ [r]⟩ with hg3
    have f3 : Frame g2 g3 := Frame.alloc g2 r
    have hr3 : g3.colors[g2.colors.length]? = some r := by simp [hg3]
    have hw3 : g3.world = h.world := k2.world.trans k1.world
    have hv3 : Val.to .hcy ts g3.world r = ok r' := by rw [hw3]; exact e3
    obtain ⟨q4, g4, a4, k4⟩ := call_to (t := ts) (by simp) hts.1 hfr.col hr3 hv3
    have f4 := k4.frame (by rw [hfr.col.ctype]; simp)
    have a1' : Converter.to_hcy (some i) h = (ok (some q1), g1) := a1
    have a2' : Converter.to_hcy (some j) g1 = (ok (some q2), g2) := a2
    have l1 := k1.here
    have l2 := k2.here
    have ls : g3.colors[i]? = some s := (f1.trans (f2.trans f3)).2 _ _ hi
    refine ⟨q4, g4, ?_, k4.here, ?_, f1.trans (f2.trans (f3.trans f4))⟩
    · rw [es] at hr l1
      rw [ed] at l2
      have a4' : Converter.convertTo (some g2.colors.length) s.ctype g3 = (ok (some q4), g4) := by
        rw [hs.ctype, convertTo_dispatcher hts.2.1 hts.2.2 hts.1]; exact a4
      have hspace : s'.space = s.space := p1
      rw [← hspace] at hr
      cases m <;> simp only [HueMode.run, ColorBlend.hue, ColorBlend.saturation, ColorBlend.color, ColorBlend.luminosity, Prog.bind_def, a1', a2', load, l1, l2, lift,
        Conv.get3_0, Conv.get3_1, Conv.get3_2, ok_bind] <;>
        simp only [HueMode.fromSource, if_true, Bool.false_eq_true, if_false] at hr <;>
        simp only [hr, Prog.alloc, ← hg3, ls, a4']
    · have : h.colors.length ≤ g2.colors.length := k1.grows.trans k2.grows
      have h3 : g2.colors.length ≤ g3.colors.length := by simp [hg3]
      rcases k4.fresh with ⟨a, -⟩ | ⟨a, -⟩
      · rw [a]; exact this
      · exact this.trans (h3.trans a)
  · by_cases ht : ts = .hcy
    · subst ht
      have : r' = r := by simpa [Val.to, eq_comm] using e3
      rw [this]; exact hfr.rng
    · rw [Val.to, if_neg (Ne.symm ht)] at e3
      exact ((Conv.good_direct _ _ (by simp) hts.1 (Ne.symm ht)).result _ _ _ e3).rng

/-- Case: luminosity of two RGB_DEEP colours. -/
example (w : World) : ∃ s d r, Color.construct .rgbDeep [1, 0, 0] 1 none = ok s ∧ Color.construct .rgbDeep [0, 1, 1] 1 none = ok d ∧
    Yields (ColorBlend.luminosity true true) w s d r ∧ ComponentsInRange r := by
  obtain ⟨s, hs⟩ := Conv.construct_total .rgbDeep (vs := [1, 0, 0]) 1 none rfl
  obtain ⟨d, hd⟩ := Conv.construct_total .rgbDeep (vs := [0, 1, 1]) 1 none rfl
  have cs := (Conv.construct_result (by simp) (by rfl) hs)
  have cd := (Conv.construct_result (by simp) (by rfl) hd)
  obtain ⟨_, _, _, r, _, _, _, _, _, _, -, -, -, -, -, -, h, -, hc, -⟩ := C58_hue_modes .luminosity true true w .rgbDeep .rgbDeep (by simp) (by simp) s d cs.col cd.col (by simp [Cie]) (by simp [Cie])
  exact ⟨s, d, r, hs, hd, h, hc⟩

/-! ## C59: commutative modes -/

/-- Swapping the arguments of a symmetric function, colours of two types: both results are versions of one RGB_DEEP colour. -/
theorem Blend.mode_swap_types (m m' : Mode) (hm : ∀ rand, m ≠ .dissolve rand) (hm' : ∀ rand, m' ≠ .dissolve rand)
    (hf : ∀ a b i x y, Blend.modeF m a b i x y = Blend.modeF m' a b i y x) (w : World) (us ud : Bool) (ts td : ColorType)
    (hts : ts ≠ .undefined ∧ ts ≠ .lchAb ∧ ts ≠ .lchUv) (htd : td ≠ .undefined ∧ td ≠ .lchAb ∧ td ≠ .lchUv) (s d : Color) (hs : IsColor ts s) (hd : IsColor td d) (hsp : s.space = d.space)
    (hw : Cie ts ∨ Cie td → w.Usable s.space) :
    ∃ r r₁ r₂, IsColor .rgbDeep r ∧ Converts w r ts r₁ ∧ Converts w r td r₂ ∧ Yields (m.run us ud) w s d r₁ ∧ Yields (m'.run ud us) w d s r₂ := by
  have hi : ∀ a b a' b' i x y, Blend.modeF m' a b i x y = Blend.modeF m' a' b' i x y := by
    intro a b a' b' i x y
    cases m' <;> first | rfl | exact absurd rfl (hm' _)
  have key : ∀ a b : Color, IsColor .rgbDeep a → IsColor .rgbDeep b → a.space = b.space →
      Blend.gpdVal a b us ud true (Blend.modeF m a b) = Blend.gpdVal b a ud us true (Blend.modeF m' b a) := by
    intro a b ha hb hab
    obtain ⟨a0, a1, a2, ea⟩ := Blend.rgb_form ha
    obtain ⟨b0, b1, b2, eb⟩ := Blend.rgb_form hb
    have hff : ∀ i x y, Blend.modeF m a b i x y = Blend.modeF m' b a i y x := fun i x y => (hf a b i x y).trans (hi _ _ _ _ _ _ _)
    generalize Blend.modeF m a b = F at *
    generalize Blend.modeF m' b a = G at *
    rw [ea, eb, Blend.gpd_result, Blend.gpd_result, hab]
    unfold Blend.result
    have e1 : b.malpha * a.malpha = a.malpha * b.malpha := mul_comm' _ _
    have e2 : ∀ x y, b.malpha * (1 - a.malpha) * x + a.malpha * (1 - b.malpha) * y = a.malpha * (1 - b.malpha) * y + b.malpha * (1 - a.malpha) * x :=
      fun x y => add_comm' _ _
    rw [e1]
    simp only [e2, hff]
  obtain ⟨s', d', r, r', v1, v2, hy, g2, v3, hy', -, hr'⟩ := C57_any_type_total m w us ud ts td hts htd.1 s d hs hd hsp hw
  have hy := hy hm
  have e1 := (converts_iff hts.1 (by simp) hs).mp v1
  have e2 := (converts_iff htd.1 (by simp) hd).mp v2
  obtain ⟨_, _, -, c1⟩ := call_to (h := ⟨w, [s]⟩) (i := 0) hts.1 (by simp) hs rfl e1
  obtain ⟨_, _, -, c2⟩ := call_to (h := ⟨w, [d]⟩) (i := 0) htd.1 (by simp) hd rfl e2
  have hsp' : s'.space = d'.space := by rw [c1.space, c2.space, hsp]
  obtain ⟨r₀, g1, -, g3⟩ := Blend.gpd_color c1.col c2.col us ud true (Blend.modeF m s' d')
  rw [Blend.mode_eq] at hy
  have : r₀ = r := Yields.unique (Blend.operator_rgb c1.col c2.col hsp' g1) hy
  subst this
  obtain ⟨r₂, e4, -, -⟩ := val_to_total (s := .rgbDeep) (by simp) htd.1 g2 (w := w)
    (fun h _ => by rw [g3, c1.space]; exact hw (h.elim (fun h => absurd h (by simp [Cie])) Or.inr))
  have v4 := (converts_iff (by simp) htd.1 g2).mpr e4
  refine ⟨r₀, r', r₂, g2, v3, v4, hy', C57_any_type m' hm' w ud us td ts htd hts.1 d s d' s' r₀ r₂ hd hs hsp.symm v2 v1 ?_ v4⟩
  rw [Blend.mode_eq]
  exact Blend.operator_rgb c2.col c1.col hsp'.symm (by rw [← key _ _ c1.col c2.col hsp']; exact g1)

/-- Swapping the arguments of a symmetric function. -/
theorem Blend.mode_swap (m m' : Mode) (hm : ∀ rand, m ≠ .dissolve rand) (hm' : ∀ rand, m' ≠ .dissolve rand)
    (hf : ∀ a b i x y, Blend.modeF m a b i x y = Blend.modeF m' a b i y x) (w : World) (us ud : Bool) (t : ColorType)
    (ht : t ≠ .undefined ∧ t ≠ .lchAb ∧ t ≠ .lchUv) (s d : Color) (hs : IsColor t s) (hd : IsColor t d) (hsp : s.space = d.space) (hw : Cie t → w.Usable s.space) :
    ∃ r, Yields (m.run us ud) w s d r ∧ Yields (m'.run ud us) w d s r := by
  obtain ⟨r, r₁, r₂, hr, v1, v2, y1, y2⟩ := Blend.mode_swap_types m m' hm hm' hf w us ud t t ht ht s d hs hd hsp (fun h => hw (h.elim id id))
  have e := (converts_iff (by simp) ht.1 hr).mp v1
  rw [(converts_iff (by simp) ht.1 hr).mp v2, ok_inj] at e
  exact ⟨r₁, y1, e ▸ y2⟩

theorem Blend.commutative_eq (m : Mode) (hm : m.Commutative) : ∀ a b i x y, Blend.modeF m a b i x y = Blend.modeF m a b i y x := by
  intro a b i x y
  cases hm
  · exact mul_comm' _ _
  · show 1 - (1 - y) * (1 - x) = 1 - (1 - x) * (1 - y); rw [mul_comm']
  · exact fmin_comm _ _
  · exact fmax_comm _ _
  · exact add_comm' _ _
  · show y + x - 1 = x + y - 1; rw [add_comm']
  · exact add_comm' _ _
  · show x + y - 1 = y + x - 1; rw [add_comm']

theorem Blend.commutativeExact_eq [ExactModel] (m : Mode) (hm : m.CommutativeExact) : ∀ a b i x y, Blend.modeF m a b i x y = Blend.modeF m a b i y x := by
  intro a b i x y
  cases hm
  · show Fl.abs (y - x) = Fl.abs (x - y)
    cases x <;> cases y <;> first | rfl | (simp only [sub_exact, abs_fin, abs_sub_comm])
  · show y + x - 2 * y * x = x + y - 2 * x * y
    rw [add_comm' y x]
    congr 1
    have i2 : ∀ r : ℝ, infOf (2 * r) = infOf r := by
      intro r
      simp only [infOf, Nat.ofNat_pos, mul_pos_iff_of_pos_left]
      have : 2 * r < 0 ↔ r < 0 := by constructor <;> intro h <;> linarith
      simp only [this]
    have t1 : (2 : Fl) * pinf = pinf := by show infOf _ = _; simp [infOf]
    have t2 : (2 : Fl) * ninf = ninf := by show infOf _ = _; simp [infOf]
    have t3 : (2 : Fl) * nan = nan := rfl
    have t4 : ∀ r : ℝ, (2 : Fl) * fin r = fin (2 * r) := by intro r; simp
    have m1 : ∀ r : ℝ, fin r * pinf = infOf r := fun _ => rfl
    have m2 : ∀ r : ℝ, fin r * ninf = infOf (-r) := fun _ => rfl
    have m3 : ∀ r : ℝ, pinf * fin r = infOf r := fun _ => rfl
    have m4 : ∀ r : ℝ, ninf * fin r = infOf (-r) := fun _ => rfl
    cases x <;> cases y <;> simp only [t1, t2, t3, t4, m1, m2, m3, m4, i2, ← mul_neg, mul_exact] <;> first | rfl | (rw [mul_right_comm])
  · show (if x < 1 - y then (0 : Fl) else 1) = (if y < 1 - x then 0 else 1)
    have s1 : ∀ r : ℝ, (1 : Fl) - fin r = fin (1 - r) := by intro r; simp
    have s2 : (1 : Fl) - pinf = ninf := by rw [one_def]; rfl
    have s3 : (1 : Fl) - ninf = pinf := by rw [one_def]; rfl
    have s4 : (1 : Fl) - nan = nan := by rw [one_def]; rfl
    have n1 : ninf < pinf := trivial
    cases x <;> cases y <;> simp only [s1, s2, s3, s4, fin_lt, nan_lt, lt_nan, not_pinf_lt, not_lt_ninf, fin_lt_pinf, ninf_lt_fin, n1, if_true, if_false]
    rename_i a b
    have : a < 1 - b ↔ b < 1 - a := by constructor <;> intro h <;> linarith
    simp only [this]

/-- C59, any rounding: multiply, screen, darken, lighten, linear_dodge, linear_burn, plus_lighter and plus_darker do not depend on the order of the two colours
(of the same type). -/
theorem C59_commutative (m : Mode) (hm : m.Commutative) (w : World) (us ud : Bool) (t : ColorType) (ht : t ≠ .undefined ∧ t ≠ .lchAb ∧ t ≠ .lchUv) (s d : Color)
    (hs : IsColor t s) (hd : IsColor t d) (hsp : s.space = d.space) (hw : Cie t → w.Usable s.space) :
    ∃ r, Yields (m.run us ud) w s d r ∧ Yields (m.run ud us) w d s r := by
  exact Blend.mode_swap m m (by cases hm <;> simp) (by cases hm <;> simp) (Blend.commutative_eq m hm) w us ud t ht s d hs hd hsp hw

/-- C59, exact arithmetic: so do difference, exclusion and hard_mix. -/
theorem C59_commutative_exact [ExactModel] (m : Mode) (hm : m.CommutativeExact) (w : World) (us ud : Bool) (t : ColorType) (ht : t ≠ .undefined ∧ t ≠ .lchAb ∧ t ≠ .lchUv) (s d : Color)
    (hs : IsColor t s) (hd : IsColor t d) (hsp : s.space = d.space) (hw : Cie t → w.Usable s.space) :
    ∃ r, Yields (m.run us ud) w s d r ∧ Yields (m.run ud us) w d s r := by
  exact Blend.mode_swap m m (by cases hm <;> simp) (by cases hm <;> simp) (Blend.commutativeExact_eq m hm) w us ud t ht s d hs hd hsp hw

/-- C59 for colours of two types, any rounding: the two orders give one and the same RGB_DEEP colour `r`, once converted to the type of the first colour and once to that of the second. -/
theorem C59_types (m : Mode) (hm : m.Commutative) (w : World) (us ud : Bool) (ts td : ColorType) (hts : ts ≠ .undefined ∧ ts ≠ .lchAb ∧ ts ≠ .lchUv)
    (htd : td ≠ .undefined ∧ td ≠ .lchAb ∧ td ≠ .lchUv) (s d : Color) (hs : IsColor ts s) (hd : IsColor td d) (hsp : s.space = d.space) (hw : Cie ts ∨ Cie td → w.Usable s.space) :
    ∃ r r₁ r₂, IsColor .rgbDeep r ∧ Converts w r ts r₁ ∧ Converts w r td r₂ ∧ Yields (m.run us ud) w s d r₁ ∧ Yields (m.run ud us) w d s r₂ :=
  Blend.mode_swap_types m m (by cases hm <;> simp) (by cases hm <;> simp) (Blend.commutative_eq m hm) w us ud ts td hts htd s d hs hd hsp hw

/-- C59 for colours of two types, exact arithmetic: difference, exclusion and hard_mix. -/
theorem C59_types_exact [ExactModel] (m : Mode) (hm : m.CommutativeExact) (w : World) (us ud : Bool) (ts td : ColorType) (hts : ts ≠ .undefined ∧ ts ≠ .lchAb ∧ ts ≠ .lchUv)
    (htd : td ≠ .undefined ∧ td ≠ .lchAb ∧ td ≠ .lchUv) (s d : Color) (hs : IsColor ts s) (hd : IsColor td d) (hsp : s.space = d.space) (hw : Cie ts ∨ Cie td → w.Usable s.space) :
    ∃ r r₁ r₂, IsColor .rgbDeep r ∧ Converts w r ts r₁ ∧ Converts w r td r₂ ∧ Yields (m.run us ud) w s d r₁ ∧ Yields (m.run ud us) w d s r₂ :=
  Blend.mode_swap_types m m (by cases hm <;> simp) (by cases hm <;> simp) (Blend.commutativeExact_eq m hm) w us ud ts td hts htd s d hs hd hsp hw

/- Cases: a CMYK and an 8-bit colour are of two such types. -/
example : Mode.screen.Commutative ∧ ¬ Cie .cmyk ∧ ¬ Cie .rgbTrue := ⟨.screen, by simp [Cie], by simp [Cie]⟩

/-- Case: two CMYK colours. -/
example (w : World) : ∃ s d r, Color.construct .cmyk [1, 0, 0, 0] 1 none = ok s ∧ Color.construct .cmyk [0, 1, 0, 0] (fin 0.5) none = ok d ∧
    Yields (ColorBlend.screen true true) w s d r ∧ Yields (ColorBlend.screen true true) w d s r := by
  obtain ⟨s, hs⟩ := Conv.construct_total .cmyk (vs := [1, 0, 0, 0]) 1 none rfl
  obtain ⟨d, hd⟩ := Conv.construct_total .cmyk (vs := [0, 1, 0, 0]) (fin 0.5) none rfl
  have cs := (Conv.construct_result (by simp) (by rfl) hs)
  have cd := (Conv.construct_result (by simp) (by rfl) hd)
  obtain ⟨r, h1, h2⟩ := C59_commutative .screen .screen w true true .cmyk (by simp) s d cs.col cd.col (by rw [cs.space, cd.space]) (by simp [Cie])
  exact ⟨s, d, r, hs, hd, h1, h2⟩
example [ExactModel] (w : World) : ∃ s d r, Color.construct .cmyk [1, 0, 0, 0] 1 none = ok s ∧ Color.construct .cmyk [0, 1, 0, 0] (fin 0.5) none = ok d ∧
    Yields (ColorBlend.difference true false) w s d r ∧ Yields (ColorBlend.difference false true) w d s r := by
  obtain ⟨s, hs⟩ := Conv.construct_total .cmyk (vs := [1, 0, 0, 0]) 1 none rfl
  obtain ⟨d, hd⟩ := Conv.construct_total .cmyk (vs := [0, 1, 0, 0]) (fin 0.5) none rfl
  have cs := (Conv.construct_result (by simp) (by rfl) hs)
  have cd := (Conv.construct_result (by simp) (by rfl) hd)
  obtain ⟨r, h1, h2⟩ := C59_commutative_exact .difference .difference w true false .cmyk (by simp) s d cs.col cd.col (by rw [cs.space, cd.space]) (by simp [Cie])
  exact ⟨s, d, r, hs, hd, h1, h2⟩

end
