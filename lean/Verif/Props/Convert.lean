import Verif.ConvAlpha
import Verif.Props.Spaces
import Verif.Props.Gammas

/-!
# Properties of conversions (C33–C37)

The public entry points are `Converter.convertTo` and, for each target type, `Conv.dispatcher t` (`color_converter::to_<t>`).
-/

open Outcome Fl Prog ObjectSpec

namespace ConvSpec

/-- Types with 8-bit alpha. -/
def EightBit (t : ColorType) : Prop := t = .rgbTrue ∨ t = .greyTrue

/-- `get_alpha` of `c` reports the opacity `a` in the scale of its type. -/
def HasOpacity [FloatModel] (c : Color) (a : ℝ) : Prop := (EightBit c.ctype → c.alpha = fin (255 * a)) ∧ (¬ EightBit c.ctype → c.alpha = fin a)

/-- One of the six CIE types. -/
def Cie (t : ColorType) : Prop := t = .xyz ∨ t = .xyy ∨ t = .cieluv ∨ t = .lab ∨ t = .lchAb ∨ t = .lchUv

/-- Every colour that existed in `h` is the same in `h'`, and so is everything else but new colours. -/
def Frame (h h' : Heap) : Prop := h'.world = h.world ∧ ∀ (j : Nat) (d : Color), h.colors[j]? = some d → h'.colors[j]? = some d

end ConvSpec

open ConvSpec

theorem ConvSpec.viaXyz_iff (t : ColorType) : Conv.viaXyz t = true ↔ Cie t := by
  cases t <;> simp [Conv.viaXyz, Cie]

theorem Mat.shape3_ofMatrix (M : Matrix (Fin 3) (Fin 3) ℝ) : (Mat.ofMatrix fin M).Shape3 := by
  refine ⟨rfl, rfl, ?_, ?_⟩
  · simp [Mat.ofMatrix]
  · intro r hr
    simp only [Mat.ofMatrix, List.mem_ofFn] at hr
    obtain ⟨i, rfl⟩ := hr
    simp

/-- Colour space definitions made by the constructor from sensible primaries are usable. -/
theorem SpaceDef.usable_of_regular [FloatModel] [ExactModel] {ws : WhiteStore} {s : SpaceDef} {P : Matrix (Fin 3) (Fin 3) ℝ} {v : Fin 3 → ℝ}
    (hreach : SpaceReach ws s) (hr : SpaceDef.Regular ws s P v) (hg : s.gamma ≠ none) : s.Usable := by
  obtain ⟨p, hp, -⟩ := hr.white
  have := space_inv ws s hreach P v hr
  refine ⟨by simp [hp], hg, ?_, ?_⟩
  · rw [this.1]; exact Mat.shape3_ofMatrix _
  · rw [this.2]; exact Mat.shape3_ofMatrix _

/-- Objects made by the constructors and changed by the setters only. -/
theorem ObjectSpec.Reach.isColor [FloatModel] {raw : Prop} {A : ColorType → Fl → Prop} {c : Color} (h : Reach raw A c) (hc : c.cls ≠ .undefined) :
    IsColor c.ctype c ∧ c.ctype ≠ .undefined := by
  have := ObjectLemmas.reach_inv h
  exact ⟨⟨this.cls.resolve_right hc, rfl, this.len, this.maxv, this.minv⟩, this.defined⟩

/-- There is a memory with a preset colour space at address 0. -/
theorem ConvSpec.exists_world [StdSort] [FloatModel] [ExactModel] (p : SpacePreset) (gp : GammaPreset) :
    ∃ w : World, w.Usable (some 0) ∧ (w.spaces 0).gamma = some 0 ∧ (w.spaces 0).white = some 0 ∧ w.whites 0 = p.white.create ∧
      SpaceReach w.whites (w.spaces 0) ∧ SpaceDef.Regular w.whites (w.spaces 0) (presetPrimaries p) (presetWhite p) ∧
      ∀ x, (w.gammas 0).correct w.parts x = GammaPreset.evalParts gp.parts x ∧ (w.gammas 0).inverse w.parts x = GammaPreset.evalParts gp.invParts x := by
  obtain ⟨g, hg, he⟩ := preset_curves gp (fun _ => ⟨none, 1⟩) 0
  obtain ⟨s, hs, hreach, hr, hsg, hsw⟩ := preset_create p (fun _ => p.white.create) 0 0
  refine ⟨⟨(gp.create (fun _ => ⟨none, 1⟩) 0).1, fun _ => g, Function.update (fun _ => p.white.create) 0 p.white.create, fun _ => s⟩,
    ⟨0, rfl, SpaceDef.usable_of_regular hreach hr (by simp [hsg])⟩, hsg, hsw, by simp, hreach, hr, he⟩

/-! ## Shared description of a conversion -/

section
variable [FloatModel]

/-- What a call of `to_<t>` does, for all pairs of types. -/
theorem convert_run (s t : ColorType) (hs : s ≠ .undefined) (ht : t ≠ .undefined) (h : Heap) (i : Nat) (c : Color) (hc : h.colors[i]? = some c)
    (hcol : IsColor s c) (hw : Cie s ∨ Cie t → s ≠ t → h.world.Usable c.space) : ∃ q h' c', Conv.dispatcher t (some i) h = (ok (some q), h') ∧
      h'.world = h.world ∧ h'.colors[q]? = some c' ∧
      (s = t → q = i ∧ h' = h ∧ c' = c) ∧
      (s ≠ t → Val.conv s t h.world c = ok c' ∧ h.colors.length ≤ q ∧
        ∀ j d, h.colors[j]? = some d → h'.colors[j]? = some (if j = i then Conv.effect s t h.world c else d)) := by
  have hi : i < h.colors.length := (List.getElem?_eq_some_iff.mp hc).1
  by_cases hst : s = t
  · subst hst
    exact ⟨i, h, c, Conv.dispatcher_same s hs h i c hc hcol.cls hcol.ctype, rfl, hc, fun _ => ⟨rfl, rfl, rfl⟩, fun hn => absurd rfl hn⟩
  · obtain ⟨c', e⟩ := (Conv.good_direct s t hs ht hst).total h.world c hcol (fun hv => hw (hv.imp (viaXyz_iff s).mp (viaXyz_iff t).mp) hst)
    have hd := Conv.dispatcher_spec s t hs ht hst h i c hc hcol
    rw [e] at hd
    obtain ⟨ext, hd⟩ := hd
    refine ⟨_, _, c', hd, rfl, ?_, fun hh => absurd hh hst, fun _ => ⟨e, by simp, ?_⟩⟩
    · simp [List.getElem?_append_right]
    · intro j d hj
      have hjl : j < h.colors.length := (List.getElem?_eq_some_iff.mp hj).1
      simp only
      rw [List.append_assoc, List.getElem?_append_left (by simpa using hjl), List.getElem?_set]
      by_cases hij : i = j
      · simp [hij, hjl]
      · simp [hij, Ne.symm hij, hj]

/-- The colour a conversion returns. -/
theorem convert_result (s t : ColorType) (hs : s ≠ .undefined) (ht : t ≠ .undefined) (h : Heap) (i : Nat) (c : Color) (hc : h.colors[i]? = some c)
    (hcol : IsColor s c) (q : Ptr) (h' : Heap) (e : Conv.dispatcher t (some i) h = (ok q, h')) (hst : s ≠ t) :
    ∃ k c', q = some k ∧ h'.colors[k]? = some c' ∧ Conv.Fresh t c.space c' ∧ h.colors.length ≤ k ∧ h'.world = h.world ∧
      (∀ j d, h.colors[j]? = some d → h'.colors[j]? = some (if j = i then Conv.effect s t h.world c else d)) ∧ Val.conv s t h.world c = ok c' := by
  have hd := Conv.dispatcher_spec s t hs ht hst h i c hc hcol
  cases hv : Val.conv s t h.world c with
  | ok c' =>
    rw [hv] at hd
    obtain ⟨ext, hd⟩ := hd
    rw [e] at hd
    obtain ⟨h1, rfl⟩ := Prod.mk.inj hd
    refine ⟨_, c', ok_inj.mp h1, ?_, (Conv.good_direct s t hs ht hst).result _ _ _ hv, by simp, rfl, ?_, rfl⟩
    · simp [List.getElem?_append_right]
    · intro j d hj
      have hjl : j < h.colors.length := (List.getElem?_eq_some_iff.mp hj).1
      simp only
      rw [List.append_assoc, List.getElem?_append_left (by simpa using hjl), List.getElem?_set]
      by_cases hij : i = j
      · simp [hij, hjl]
      · simp [hij, Ne.symm hij, hj]
  | throw x =>
    rw [hv] at hd
    obtain ⟨ext, hd⟩ := hd
    rw [e] at hd
    exact absurd (Prod.mk.inj hd).1 (by simp)
  | ub =>
    rw [hv] at hd
    obtain ⟨ext, hd⟩ := hd
    rw [e] at hd
    exact absurd (Prod.mk.inj hd).1 (by simp)

/-! ## C33: type, colour space and opacity of the result -/

/-- C33, type and colour space, for the 15 functions `to_<t>`.  Conversions between different types where a CIE type is involved need a
usable colour space definition. -/
theorem C33_type_and_space (s t : ColorType) (hs : s ≠ .undefined) (ht : t ≠ .undefined) (h : Heap) (i : Nat) (c : Color) (hc : h.colors[i]? = some c)
    (hcol : IsColor s c) (hw : Cie s ∨ Cie t → s ≠ t → h.world.Usable c.space) :
    ∃ q h' c', Conv.dispatcher t (some i) h = (ok (some q), h') ∧ h'.colors[q]? = some c' ∧ c'.cls = t ∧ c'.ctype = t ∧
      c'.comps.length = Color.count t ∧ c'.space = c.space := by
  obtain ⟨q, h', c', e, -, hq, h1, h2⟩ := convert_run s t hs ht h i c hc hcol hw
  refine ⟨q, h', c', e, hq, ?_⟩
  by_cases hst : s = t
  · obtain ⟨-, -, rfl⟩ := h1 hst
    subst hst
    exact ⟨hcol.cls, hcol.ctype, hcol.len, rfl⟩
  · obtain ⟨hv, -, -⟩ := h2 hst
    have hf := (Conv.good_direct s t hs ht hst).result _ _ _ hv
    exact ⟨hf.col.cls, hf.col.ctype, hf.col.len, hf.space⟩

/-- C33, type and colour space, for `convertTo`.  Missing: the targets LCH(ab) and LCH(uv), see `C35_violated`. -/
theorem C33_convertTo_partial (s t : ColorType) (hs : s ≠ .undefined) (ht : t ≠ .undefined) (hl : t ≠ .lchAb ∧ t ≠ .lchUv) (h : Heap) (i : Nat) (c : Color)
    (hc : h.colors[i]? = some c) (hcol : IsColor s c) (hw : Cie s ∨ Cie t → s ≠ t → h.world.Usable c.space) :
    ∃ q h' c', Converter.convertTo (some i) t h = (ok (some q), h') ∧ h'.colors[q]? = some c' ∧ c'.cls = t ∧ c'.ctype = t ∧
      c'.comps.length = Color.count t ∧ c'.space = c.space := by
  rw [Conv.convertTo_eq _ t ⟨hl.1, hl.2, ht⟩]
  exact C33_type_and_space s t hs ht h i c hc hcol hw

end

theorem ConvSpec.hasOpacity_iff [FloatModel] [ExactModel] {t : ColorType} {c : Color} (hcol : IsColor t c) (a : ℝ) : HasOpacity c a ↔ c.malpha = fin a := by
  have key : ∀ x : Fl, x * 255 = fin (255 * a) ↔ x = fin a := by
    intro x
    cases x with
    | fin r => simp; constructor <;> intro hh <;> linarith
    | nan => exact ⟨fun hh => (by cases hh), fun hh => (by cases hh)⟩
    | pinf =>
      refine ⟨fun hh => ?_, fun hh => (by cases hh)⟩
      simp only [lit_def] at hh
      have : infOf (255 : ℝ) = fin (255 * a) := hh
      norm_num [infOf] at this
      cases this
    | ninf =>
      refine ⟨fun hh => ?_, fun hh => (by cases hh)⟩
      simp only [lit_def] at hh
      have : infOf (-255 : ℝ) = fin (255 * a) := hh
      norm_num [infOf] at this
      cases this
  unfold HasOpacity EightBit
  rw [Color.alpha, hcol.cls, hcol.ctype]
  cases t <;> simp [Color.scalesAlpha]
  · simpa using key c.malpha
  · simpa using key c.malpha

section
variable [FloatModel] [ExactModel]

theorem ConvSpec.quant_cases (s t : ColorType) (a : ℝ) : (EightBit t ∧ ¬ EightBit s → ∃ n : ℤ, Conv.quant s t a = n / 255 ∧ |Conv.quant s t a - a| ≤ 1 / 510) ∧
    (¬ (EightBit t ∧ ¬ EightBit s) → Conv.quant s t a = a) := by
  have key : |(roundR (a * 255) : ℝ) / 255 - a| ≤ 1 / 510 := by
    have : |(roundR (a * 255) : ℝ) - a * 255| ≤ 1 / 2 := by
      unfold roundR
      split
      · have h1 := Int.floor_le (a * 255 + 1/2); have h2 := Int.lt_floor_add_one (a * 255 + 1/2)
        rw [abs_le]; constructor <;> linarith
      · have h1 := Int.ceil_lt_add_one (a * 255 - 1/2); have h2 := Int.le_ceil (a * 255 - 1/2)
        rw [abs_le]; constructor <;> linarith
    rw [show (roundR (a * 255) : ℝ) / 255 - a = ((roundR (a * 255) : ℝ) - a * 255) / 255 by ring, abs_div]
    rw [show |(255 : ℝ)| = 255 by norm_num, div_le_iff₀ (by norm_num)]
    linarith
  cases s <;> cases t <;> simp [EightBit, Conv.quant, Color.scalesAlpha] <;> first | rfl | simpa using key | exact ⟨⟨_, rfl⟩, by simpa using key⟩

/-- C33, opacity, in exact arithmetic.  A target with 8-bit alpha gets the nearest multiple of 1/255; between other types the opacity is unchanged.
Missing: black HSL colours, see `C33_black_violated`. -/
theorem C33_opacity_partial (s t : ColorType) (hs : s ≠ .undefined) (ht : t ≠ .undefined) (h : Heap) (i : Nat) (c : Color) (hc : h.colors[i]? = some c)
    (hcol : IsColor s c) (hw : Cie s ∨ Cie t → s ≠ t → h.world.Usable c.space) (a : ℝ) (ha : HasOpacity c a) (h0 : 0 ≤ a) (h1 : a ≤ 1)
    (hb : s = .hsl → c.comps[2]? ≠ some 0) :
    ∃ q h' c' a', Conv.dispatcher t (some i) h = (ok (some q), h') ∧ h'.colors[q]? = some c' ∧ HasOpacity c' a' ∧
      (¬ (EightBit t ∧ ¬ EightBit s) → a' = a) ∧ |a' - a| ≤ 1 / 510 := by
  obtain ⟨q, h', c', e, -, hq, hsame, hdiff⟩ := convert_run s t hs ht h i c hc hcol hw
  by_cases hst : s = t
  · obtain ⟨-, -, rfl⟩ := hsame hst
    exact ⟨q, h', c', a, e, hq, ha, fun _ => rfl, by norm_num⟩
  · obtain ⟨hv, -, -⟩ := hdiff hst
    have hf := (Conv.good_direct s t hs ht hst).result _ _ _ hv
    have hnb : Conv.NotBlack c := by
      intro hcl x hx hx0
      refine hb (hcol.ctype.symm.trans hcl) ?_
      rw [hx, hx0.1]
    have hq' := Conv.alpha_direct s t hs ht hst h.world c c' a hcol hnb ((hasOpacity_iff hcol a).mp ha) h0 h1 hv
    obtain ⟨k1, k2⟩ := quant_cases s t a
    refine ⟨q, h', c', Conv.quant s t a, e, hq, (hasOpacity_iff hf.col _).mpr hq'.1, k2, ?_⟩
    by_cases hE : EightBit t ∧ ¬ EightBit s
    · obtain ⟨_, _, hh⟩ := k1 hE; exact hh
    · rw [k2 hE]; norm_num

/-- C33 fails: a black HSL colour becomes fully transparent, whatever its opacity, in every type but HSV. -/
theorem C33_black_violated (t : ColorType) (ht : t ≠ .undefined) (h1 : t ≠ .hsl) (h2 : t ≠ .hsv) (h : Heap) (i : Nat) (c : Color)
    (hc : h.colors[i]? = some c) (hcol : IsColor .hsl c) (hb : c.comps[2]? = some 0) (hw : Cie t → h.world.Usable c.space)
    (a : ℝ) (ha : HasOpacity c a) (h0 : 0 ≤ a) (h1' : a ≤ 1) :
    ∃ q h' c', Conv.dispatcher t (some i) h = (ok (some q), h') ∧ h'.colors[q]? = some c' ∧ HasOpacity c' 0 := by
  obtain ⟨q, h', c', e, -, hq, -, hdiff⟩ := convert_run .hsl t (by simp) ht h i c hc hcol (fun hh _ => hw (hh.resolve_left (by simp [Cie])))
  obtain ⟨hv, -, -⟩ := hdiff (Ne.symm h1)
  have hf := (Conv.good_direct .hsl t (by simp) ht (Ne.symm h1)).result _ _ _ hv
  have := Conv.alpha_black t ht (Ne.symm h1) h2 h.world c c' a hcol hb ((hasOpacity_iff hcol a).mp ha) h0 h1' hv
  exact ⟨q, h', c', e, hq, (hasOpacity_iff hf.col _).mpr this.1⟩

/-- Witness for the previous theorem: opaque black. -/
theorem C33_black_witness (h : Heap) : ∃ c, Color.construct .hsl [0, 0, 0] 1 none = ok c ∧ HasOpacity c 1 ∧
    ∃ q h' c', Conv.dispatcher .rgbDeep (some 0) { h with colors := [c] } = (ok (some q), h') ∧ h'.colors[q]? = some c' ∧ HasOpacity c' 0 := by
  have e : Color.construct .hsl [0, 0, 0] 1 none = ok (Color.mkHue .hsl 0 0 0 1 none) := Color.construct_hsl 1 none 0 0 0
  have hf := Conv.construct_result (t := .hsl) (by simp) rfl e
  have ho : HasOpacity (Color.mkHue .hsl 0 0 0 1 none) 1 := (hasOpacity_iff hf.col 1).mpr (by simp [Color.mkHue])
  refine ⟨_, e, ho, C33_black_violated .rgbDeep (by simp) (by simp) (by simp) _ 0 _ rfl hf.col ?_ (by simp [Cie]) 1 ho (by norm_num) (by norm_num)⟩
  simp [Color.mkHue, Color.clamp_fin]

/-- C33 fails for targets with 8-bit alpha: half transparent grey does not stay half transparent. -/
theorem C33_quantised_violated (h : Heap) : ∃ c, Color.construct .rgbDeep [1, 1, 1] (fin 0.5) none = ok c ∧ HasOpacity c 0.5 ∧
    ∃ q h' c', Conv.dispatcher .rgbTrue (some 0) { h with colors := [c] } = (ok (some q), h') ∧ h'.colors[q]? = some c' ∧ ¬ HasOpacity c' 0.5 := by
  obtain ⟨c, e⟩ := Conv.construct_total .rgbDeep (vs := [1, 1, 1]) (fin 0.5) none rfl
  have hf := Conv.construct_result (t := .rgbDeep) (by simp) rfl e
  have ha := Conv.construct_alpha (t := .rgbDeep) (by simp) rfl e
  simp only [Color.scalesAlpha, Bool.false_eq_true, if_false] at ha
  obtain ⟨q, h', c', e', -, hq, -, hdiff⟩ := convert_run .rgbDeep .rgbTrue (by simp) (by simp) { h with colors := [c] } 0 c rfl hf.col (by simp [Cie])
  obtain ⟨hv, -, -⟩ := hdiff (by simp)
  have hq' := Conv.alpha_direct .rgbDeep .rgbTrue (by simp) (by simp) (by simp) h.world c c' 0.5 hf.col
    (fun hh => by rw [hf.col.ctype] at hh; cases hh) ha (by norm_num) (by norm_num) hv
  have hf' := (Conv.good_direct .rgbDeep .rgbTrue (by simp) (by simp) (by simp)).result _ _ _ hv
  refine ⟨c, e, (hasOpacity_iff hf.col _).mpr ha, q, h', c', e', hq, ?_⟩
  rw [hasOpacity_iff hf'.col, hq'.1, fin.injEq]
  obtain ⟨n, hn, -⟩ := (quant_cases .rgbDeep .rgbTrue 0.5).1 (by simp [EightBit])
  rw [hn]
  intro hh
  have h2 : (2 * n : ℝ) = 255 := by linarith
  have : (2 * n : ℤ) = 255 := by exact_mod_cast h2
  omega

/-- The hypotheses of `C33_opacity_partial` can be met: half transparent grey to LAB in an sRGB memory. -/
example [StdSort] : ∃ (h : Heap) (c : Color), h.colors[0]? = some c ∧ IsColor .rgbDeep c ∧ HasOpacity c 0.5 ∧ h.world.Usable c.space ∧
    ∃ q h' c', Conv.dispatcher .lab (some 0) h = (ok (some q), h') ∧ h'.colors[q]? = some c' ∧ HasOpacity c' 0.5 := by
  obtain ⟨w, hw, -⟩ := exists_world .sRGB .sRGB
  obtain ⟨c, e⟩ := Conv.construct_total .rgbDeep (vs := [1, 1, 1]) (fin 0.5) (some 0) rfl
  have hf := Conv.construct_result (t := .rgbDeep) (by simp) rfl e
  have ha := Conv.construct_alpha (t := .rgbDeep) (by simp) rfl e
  simp only [Color.scalesAlpha, Bool.false_eq_true, if_false] at ha
  have ho := (hasOpacity_iff hf.col _).mpr ha
  refine ⟨⟨w, [c]⟩, c, rfl, hf.col, ho, hf.space ▸ hw, ?_⟩
  obtain ⟨q, h', c', a', h1, h2, h3, h4, -⟩ := C33_opacity_partial .rgbDeep .lab (by simp) (by simp) ⟨w, [c]⟩ 0 c rfl hf.col (fun _ _ => hf.space ▸ hw) _ ho
    (by norm_num) (by norm_num) (by simp)
  exact ⟨q, h', c', h1, h2, h4 (by simp [EightBit]) ▸ h3⟩

end

/-! ## C34: the input is not modified -/

section
variable [FloatModel]

/-- C34 for every pair of types except RGB_DEEP to a CIE type, on every memory and every object: when the call returns, all colours that existed
before and everything they point to are unchanged. -/
theorem C34_unmodified_partial (s t : ColorType) (hs : s ≠ .undefined) (ht : t ≠ .undefined) (hx : ¬ (s = .rgbDeep ∧ Cie t)) (h : Heap) (i : Nat) (c : Color)
    (hc : h.colors[i]? = some c) (hcol : IsColor s c) (q : Ptr) (h' : Heap) (e : Conv.dispatcher t (some i) h = (ok q, h')) : Frame h h' := by
  by_cases hst : s = t
  · subst hst
    rw [Conv.dispatcher_same s hs h i c hc hcol.cls hcol.ctype] at e
    obtain ⟨-, rfl⟩ := Prod.mk.inj e
    exact ⟨rfl, fun _ _ hh => hh⟩
  · obtain ⟨k, c', -, -, -, -, hw, hfr, -⟩ := convert_result s t hs ht h i c hc hcol q h' e hst
    refine ⟨hw, fun j d hj => ?_⟩
    rw [hfr j d hj]
    split
    · rename_i hji
      subst hji
      obtain rfl := Option.some.inj (hc.symm.trans hj)
      have : Conv.effect s t h.world c = c := by
        rw [← viaXyz_iff] at hx
        unfold Conv.effect
        cases s <;> cases t <;> simp_all [Conv.viaXyz] <;> rfl
      rw [this]
    · rfl

/-- The same for `convertTo`, which also leaves everything alone when it returns null. -/
theorem C34_convertTo_partial (s t : ColorType) (hs : s ≠ .undefined) (hx : ¬ (s = .rgbDeep ∧ Cie t)) (h : Heap) (i : Nat) (c : Color)
    (hc : h.colors[i]? = some c) (hcol : IsColor s c) (q : Ptr) (h' : Heap) (e : Converter.convertTo (some i) t h = (ok q, h')) : Frame h h' := by
  by_cases hl : t ≠ .lchAb ∧ t ≠ .lchUv ∧ t ≠ .undefined
  · rw [Conv.convertTo_eq _ t hl] at e
    exact C34_unmodified_partial s t hs hl.2.2 hx h i c hc hcol q h' e
  · have : Converter.convertTo (some i) t h = (ok none, h) := by
      cases t <;> first | rfl | exact absurd (by simp) hl
    rw [this] at e
    obtain ⟨-, rfl⟩ := Prod.mk.inj e
    exact ⟨rfl, fun _ _ hh => hh⟩

/-- What happens to the input in the remaining case: the channels of the RGB_DEEP colour are replaced by their gamma-decoded values; all other objects are
unchanged. -/
theorem C34_rgb_deep_to_cie (t : ColorType) (ht : Cie t) (h : Heap) (i : Nat) (c : Color) (hc : h.colors[i]? = some c) (hcol : IsColor .rgbDeep c)
    (s g : Nat) (hsp : c.space = some s) (hg : (h.world.spaces s).gamma = some g) (q : Ptr) (h' : Heap) (e : Conv.dispatcher t (some i) h = (ok q, h')) :
    h'.world = h.world ∧ (∀ (j : Nat) (d : Color), j ≠ i → h.colors[j]? = some d → h'.colors[j]? = some d) ∧
    h'.colors[i]? = some { c with comps := c.comps.map fun v => Color.clamp ((h.world.gammas g).inverse h.world.parts v) 1 0 } := by
  have htu : t ≠ .undefined := by rintro rfl; simp [Cie] at ht
  have hst : ColorType.rgbDeep ≠ t := by rintro rfl; simp [Cie] at ht
  obtain ⟨k, c', -, -, -, -, hw, hfr, -⟩ := convert_result .rgbDeep t (by simp) htu h i c hc hcol q h' e hst
  refine ⟨hw, fun j d hji hj => by rw [hfr j d hj, if_neg hji], ?_⟩
  rw [hfr i c hc, if_pos rfl]
  have : Conv.effect .rgbDeep t h.world c = Val.linearised h.world c := by
    rw [← viaXyz_iff] at ht
    unfold Conv.effect
    cases t <;> simp_all [Conv.viaXyz]
  rw [this]
  simp only [Val.linearised, Leaf.inverseGamma, World.space, hsp, World.gamma, hg, ok_bind, Color.applyGamma, hcol.maxv, hcol.minv, Color.maxOf, Color.minOf]

end

/-- C34 fails: converting mid grey in an sRGB space with gamma 2.2 to XYZ darkens the grey that was passed in. -/
theorem C34_violated [StdSort] [FloatModel] [ExactModel] : ∃ (h : Heap) (c d : Color) (q : Ptr) (h' : Heap),
    Color.construct .rgbDeep [fin 0.5, fin 0.5, fin 0.5] 1 (some 0) = ok c ∧ h.colors = [c] ∧
    Converter.convertTo (some 0) .xyz h = (ok q, h') ∧ h'.colors[0]? = some d ∧ ∃ x : ℝ, x < 0.3 ∧ d.comps = [fin x, fin x, fin x] := by
  obtain ⟨w, hw, hg, -, -, -, -, hcurve⟩ := exists_world .sRGB .g2_2
  have hc : Color.clamp (fin 0.5) 1 0 = fin 0.5 := Conv.clamp_unit (by norm_num) (by norm_num)
  have e : Color.construct .rgbDeep [fin 0.5, fin 0.5, fin 0.5] 1 (some 0) = ok (Color.mkRgbDeep (fin 0.5) (fin 0.5) (fin 0.5) 1 (some 0)) :=
    Color.construct_rgbDeep _ _ _ _ _
  set c := Color.mkRgbDeep (fin 0.5) (fin 0.5) (fin 0.5) 1 (some 0) with hcdef
  have hf := Conv.construct_result (t := .rgbDeep) (by simp) rfl e
  obtain ⟨q, h', c', e', -⟩ := convert_run .rgbDeep .xyz (by simp) (by simp) ⟨w, [c]⟩ 0 c rfl hf.col (fun _ _ => hf.space ▸ hw)
  have hd := C34_rgb_deep_to_cie .xyz (by simp [Cie]) ⟨w, [c]⟩ 0 c rfl hf.col 0 0 hf.space hg (some q) h' e'
  refine ⟨⟨w, [c]⟩, c, _, some q, h', e, rfl, ?_, hd.2.2, (0.5 : ℝ) ^ (11/5 : ℝ), ?_, ?_⟩
  · rw [Conv.convertTo_eq _ _ (by simp)]; exact e'
  · have := GammaPreset.rpow_lt_of_pow (a := 0.5) (b := 0.3) (m := 11) (n := 5) (by norm_num) (by norm_num) (by norm_num) (by norm_num)
    simpa using this
  · have hx : (w.gammas 0).inverse w.parts (fin 0.5) = fin ((0.5 : ℝ) ^ (11/5 : ℝ)) := by
      rw [(hcurve _).2, (GammaPreset.eval_power (p := .g2_2) (by simp [GammaPreset.IsPower]) (by norm_num) (by norm_num)).2]; rfl
    have hu := GammaPreset.pow_unit (x := 0.5) (a := 11/5) (by norm_num) (by norm_num) (by norm_num)
    simp only [hcdef, Color.mkRgbDeep, hc, List.map_cons, List.map_nil, hx, Conv.clamp_unit hu.1 hu.2]

/-! ## C35: every conversion is available -/

section
variable [FloatModel]

/-- C35 for the 15 functions `to_<t>`: all 225 pairs. -/
theorem C35_available (s t : ColorType) (hs : s ≠ .undefined) (ht : t ≠ .undefined) (h : Heap) (i : Nat) (c : Color) (hc : h.colors[i]? = some c)
    (hcol : IsColor s c) (hw : Cie s ∨ Cie t → s ≠ t → h.world.Usable c.space) :
    ∃ q h', Conv.dispatcher t (some i) h = (ok (some q), h') ∧ q < h'.colors.length := by
  obtain ⟨q, h', c', e, -, hq, -⟩ := convert_run s t hs ht h i c hc hcol hw
  exact ⟨q, h', e, (List.getElem?_eq_some_iff.mp hq).1⟩

/-- C35 for `convertTo`; missing: the LCH targets. -/
theorem C35_convertTo_partial (s t : ColorType) (hs : s ≠ .undefined) (ht : t ≠ .undefined) (hl : t ≠ .lchAb ∧ t ≠ .lchUv) (h : Heap) (i : Nat) (c : Color)
    (hc : h.colors[i]? = some c) (hcol : IsColor s c) (hw : Cie s ∨ Cie t → s ≠ t → h.world.Usable c.space) :
    ∃ q h', Converter.convertTo (some i) t h = (ok (some q), h') ∧ q < h'.colors.length := by
  rw [Conv.convertTo_eq _ t ⟨hl.1, hl.2, ht⟩]
  exact C35_available s t hs ht h i c hc hcol hw

/-- C35 fails for `convertTo` with an LCH target: null, for every colour, even one that has that type already. -/
theorem C35_violated (p : Ptr) (h : Heap) : Converter.convertTo p .lchAb h = (ok none, h) ∧ Converter.convertTo p .lchUv h = (ok none, h) := ⟨rfl, rfl⟩

/-- C35 fails without a colour space definition: converting a colour whose space pointer is null to XYZ is undefined behaviour. -/
theorem C35_null_space_violated (h : Heap) : ∃ c h', Color.construct .rgbDeep [1, 1, 1] 1 none = ok c ∧
    Converter.convertTo (some 0) .xyz { h with colors := [c] } = (.ub, h') := by
  obtain ⟨c, e⟩ := Conv.construct_total .rgbDeep (vs := [1, 1, 1]) 1 none rfl
  have hf := Conv.construct_result (t := .rgbDeep) (by simp) rfl e
  have hd := Conv.dispatcher_spec .rgbDeep .xyz (by simp) (by simp) (by simp) { h with colors := [c] } 0 c rfl hf.col
  have hv : Val.conv .rgbDeep .xyz h.world c = .ub := by
    show Val.rgb_deep_to_xyz h.world c = _
    simp only [Val.rgb_deep_to_xyz, Leaf.inverseGamma, World.space, hf.space]
    rfl
  simp only [hv] at hd
  obtain ⟨h', hd⟩ := hd
  exact ⟨c, h', e, by rw [Conv.convertTo_eq _ _ (by simp)]; exact hd⟩

/-- C35 fails for sums: the object `a + b` of two true colours is a plain `color_base` that claims to be an `rgb_truecolor`; converting it to
RGB_DEEP downcasts it wrongly. -/
theorem C35_sum_violated (h : Heap) : ∃ a c, Color.construct .rgbTrue [1, 1, 1] 255 none = ok a ∧ a.plus a = ok c ∧
    (Converter.convertTo (some 0) .rgbDeep { h with colors := [c] }).1 = .ub := by
  obtain ⟨a, e⟩ := Conv.construct_total .rgbTrue (vs := [1, 1, 1]) 255 none rfl
  have hf := Conv.construct_result (t := .rgbTrue) (by simp) rfl e
  refine ⟨a, _, e, by rw [Color.plus, if_pos ⟨rfl, rfl⟩], ?_⟩
  simp only [Converter.convertTo, Converter.to_rgb_deep, Prog.bind_def, load, List.getElem?_cons_zero, hf.col.ctype, Converter.cast]
  rfl

/-! ## C36: conversion to the own type -/

/-- C36 for the 15 functions `to_<t>`. -/
theorem C36_same_object (t : ColorType) (ht : t ≠ .undefined) (h : Heap) (i : Nat) (c : Color) (hc : h.colors[i]? = some c) (hcl : c.cls = t) (hct : c.ctype = t) :
    Conv.dispatcher t (some i) h = (ok (some i), h) := Conv.dispatcher_same t ht h i c hc hcl hct

/-- C36 for `convertTo`; missing: LCH colours, for which it returns null (`C35_violated`). -/
theorem C36_convertTo_partial (h : Heap) (i : Nat) (c : Color) (hc : h.colors[i]? = some c) (ht : c.ctype ≠ .undefined) (hcl : c.cls = c.ctype)
    (hl : c.ctype ≠ .lchAb ∧ c.ctype ≠ .lchUv) : Converter.convertTo (some i) c.ctype h = (ok (some i), h) := by
  rw [Conv.convertTo_eq _ _ ⟨hl.1, hl.2, ht⟩]
  exact C36_same_object _ ht h i c hc hcl rfl

/-- Conversion to a different type never returns an object that existed before. -/
theorem C36_fresh_otherwise (s t : ColorType) (hs : s ≠ .undefined) (ht : t ≠ .undefined) (hst : s ≠ t) (h : Heap) (i : Nat) (c : Color)
    (hc : h.colors[i]? = some c) (hcol : IsColor s c) (q : Ptr) (h' : Heap) (e : Conv.dispatcher t (some i) h = (ok q, h')) :
    ∃ k, q = some k ∧ h.colors.length ≤ k := by
  obtain ⟨k, c', hq, -, -, hk, -⟩ := convert_result s t hs ht h i c hc hcol q h' e hst
  exact ⟨k, hq, hk⟩

/-! ## C37: components in range -/

/-- C37: for every input object (its components may be NaN or infinite), every world (broken colour spaces included) and every rounding, whatever a
conversion to a different type returns has all components inside the limits of the target type; the lightness of LAB and CIELUV lies in 0..100. -/
theorem C37_in_range (s t : ColorType) (hs : s ≠ .undefined) (ht : t ≠ .undefined) (hst : s ≠ t) (h : Heap) (i : Nat) (c : Color)
    (hc : h.colors[i]? = some c) (hcol : IsColor s c) (q : Ptr) (h' : Heap) (e : Conv.dispatcher t (some i) h = (ok q, h')) :
    ∃ k c', q = some k ∧ h'.colors[k]? = some c' ∧ c'.ctype = t ∧ ComponentsInRange c' ∧
      (t = .lab ∨ t = .cieluv → ∀ x, c'.comps[0]? = some x → InRange 0 100 x) := by
  obtain ⟨k, c', hq, hk, hf, -⟩ := convert_result s t hs ht h i c hc hcol q h' e hst
  exact ⟨k, c', hq, hk, hf.col.ctype, hf.rng, hf.lum⟩

/-- C37 for all pairs when the input itself is in range, as every reachable colour is (C01). -/
theorem C37_reachable {raw : Prop} {A : ColorType → Fl → Prop} (t : ColorType) (ht : t ≠ .undefined) (h : Heap) (i : Nat) (c : Color) (hc : h.colors[i]? = some c)
    (hr : Reach raw A c) (hcl : c.cls ≠ .undefined) (q : Ptr) (h' : Heap) (e : Conv.dispatcher t (some i) h = (ok q, h')) :
    ∃ k c', q = some k ∧ h'.colors[k]? = some c' ∧ c'.ctype = t ∧ ComponentsInRange c' := by
  obtain ⟨hcol, hs⟩ := hr.isColor hcl
  by_cases hst : c.ctype = t
  · rw [Conv.dispatcher_same t ht h i c hc (hcol.cls.trans hst) hst] at e
    obtain ⟨h1, rfl⟩ := Prod.mk.inj e
    exact ⟨i, c, (ok_inj.mp h1).symm, hc, hst, (ObjectLemmas.reach_inv hr).rng⟩
  · obtain ⟨k, c', h1, h2, h3, h4, -⟩ := C37_in_range c.ctype t hs ht hst h i c hc hcol q h' e
    exact ⟨k, c', h1, h2, h3, h4⟩

/-- The hypotheses of `C37_in_range` can be met by an input full of NaN. -/
example (h : Heap) : ∃ c q h', IsColor .rgbDeep c ∧ c.comps = [nan, nan, nan] ∧ Conv.dispatcher .hsl (some 0) { h with colors := [c] } = (ok q, h') := by
  have hcol : IsColor .rgbDeep ⟨.rgbDeep, .rgbDeep, [nan, nan, nan], 1, 1, 0, none⟩ := ⟨rfl, rfl, rfl, rfl, rfl⟩
  obtain ⟨q, h', e, -⟩ := C35_available .rgbDeep .hsl (by simp) (by simp) { h with colors := [_] } 0 _ rfl hcol (by simp [Cie])
  exact ⟨_, some q, h', hcol, rfl, e⟩

end
