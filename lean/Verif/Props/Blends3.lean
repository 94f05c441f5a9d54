import Verif.Props.Blends2

/-!
# Neutral colours, dissolve and the definitions of the blend modes (C60–C62, C88, C89)
-/

open Outcome Fl Prog ObjectSpec ConvSpec Hue BlendSpec

namespace BlendSpec

open Classical in
/-- The definitions of the modes (W3C Compositing and Blending, and the usual definitions of the modes that are not listed there), from the source channel `s` and the
destination channel `d`.  A value outside 0..1 means the nearest valid one. -/
noncomputable def standard : Mode → ℝ → ℝ → ℝ
  | .normal, s, _ => s
  | .multiply, s, d => s * d
  | .screen, s, d => 1 - (1 - s) * (1 - d)
  | .overlay, s, d => if d ≤ 1 / 2 then s * (2 * d) else 1 - (1 - s) * (1 - (2 * d - 1))
  | .darken, s, d => if s ≤ d then s else d
  | .lighten, s, d => if s ≤ d then d else s
  | .color_dodge, s, d => if d = 0 then 0 else if s = 1 then 1 else min 1 (d / (1 - s))
  | .linear_dodge, s, d => s + d
  | .color_burn, s, d => if d = 1 then 1 else if s = 0 then 0 else 1 - min 1 ((1 - d) / s)
  | .linear_burn, s, d => s + d - 1
  | .hard_light, s, d => if s ≤ 1 / 2 then d * (2 * s) else 1 - (1 - d) * (1 - (2 * s - 1))
  | .soft_light, s, d => if s ≤ 1 / 2 then d * (s + 1 / 2) else 1 - (1 - d) * (1 - (s - 1 / 2))
  | .vivid_light, s, d =>
    if s ≤ 1 / 2 then (if d = 1 then 1 else if s = 0 then 0 else 1 - min 1 ((1 - d) / (2 * s)))
    else (if d = 0 then 0 else if s = 1 then 1 else min 1 (d / (1 - (2 * s - 1))))
  | .linear_light, s, d => d + 2 * s - 1
  | .pin_light, s, d => if s ≤ 1 / 2 then min d (2 * s) else max d (2 * s - 1)
  | .hard_mix, s, d => if 1 ≤ s + d then 1 else 0
  | .difference, s, d => if s ≤ d then d - s else s - d
  | .subtract, s, d => d - s
  | .divide, s, d => if s = 0 then (if d = 0 then 0 else 1) else d / s
  | .plus_lighter, s, d => min 1 (s + d)
  | .plus_darker, s, d => max 0 (s + d - 1)
  | .exclusion, s, d => s + d - 2 * (s * d)
  | .dissolve _, s, _ => s
  | .custom f, s, d => match f (fin s) (fin d) with
    | fin x => x
    | _ => 0

/-- The modes that do not compute what defines them; dissolve and the function of the caller have no definition to compare with. -/
def Mode.Nonstandard : Mode → Prop
  | .color_burn => True
  | .vivid_light => True
  | .soft_light => True
  | .subtract => True
  | .dissolve _ => True
  | .custom _ => True
  | _ => False

end BlendSpec

section
variable [FloatModel]

/-! ## C60: neutral and absorbing colours -/

section
variable [ExactModel]

/-- The general form: if the formula gives `d` in every channel, an opaque `d` does not change. -/
theorem Blend.neutral (m : Mode) (hm : m.Finite) (w : World) (us : Bool) (s d : Color) (s0 s1 s2 sa d0 d1 d2 : ℝ) (hs : IsPixel s s0 s1 s2 sa)
    (hd : IsPixel d d0 d1 d2 1) (hsp : s.space = d.space) (h0 : m.formula (sa - 1) 0 s0 d0 = d0) (h1 : m.formula (sa - 1) 1 s1 d1 = d1)
    (h2 : m.formula (sa - 1) 2 s2 d2 = d2) : Yields (m.run us true) w s d d := by
  have h := Blend.mode_exact m hm w us true s d s0 s1 s2 sa d0 d1 d2 1 hs hd hsp
  have ha : Blend.alphaOf us true true sa 1 = 1 := by simp [Blend.alphaOf, Blend.weight]
  have hc : ∀ x y : ℝ, Blend.comb us true sa 1 x y y = y := by intro x y; simp [Blend.comb, Blend.weight]; ring
  have hq : ∀ x : ℝ, Blend.quot 1 x = x := by intro x; simp [Blend.quot]
  rw [h0, h1, h2, ha, hc, hc, hc, hq, hq, hq, Blend.unit_of hd.rgb.r0 hd.rgb.r1, Blend.unit_of hd.rgb.g0 hd.rgb.g1, Blend.unit_of hd.rgb.b0 hd.rgb.b1, hsp, ← hd.eq] at h
  exact h

/-- The general form: if the formula gives `s` in every channel, an opaque `s` hides everything. -/
theorem Blend.absorbing (m : Mode) (hm : m.Finite) (w : World) (ud : Bool) (s d : Color) (s0 s1 s2 d0 d1 d2 da : ℝ) (hs : IsPixel s s0 s1 s2 1)
    (hd : IsPixel d d0 d1 d2 da) (hsp : s.space = d.space) (h0 : m.formula (1 - da) 0 s0 d0 = s0) (h1 : m.formula (1 - da) 1 s1 d1 = s1)
    (h2 : m.formula (1 - da) 2 s2 d2 = s2) : Yields (m.run true ud) w s d s := by
  have h := Blend.mode_exact m hm w true ud s d s0 s1 s2 1 d0 d1 d2 da hs hd hsp
  have ha : Blend.alphaOf true ud true 1 da = 1 := by simp [Blend.alphaOf, Blend.weight]
  have hc : ∀ x y : ℝ, Blend.comb true ud 1 da x y x = x := by intro x y; simp [Blend.comb, Blend.weight]; ring
  have hq : ∀ x : ℝ, Blend.quot 1 x = x := by intro x; simp [Blend.quot]
  rw [h0, h1, h2, ha, hc, hc, hc, hq, hq, hq, Blend.unit_of hs.rgb.r0 hs.rgb.r1, Blend.unit_of hs.rgb.g0 hs.rgb.g1, Blend.unit_of hs.rgb.b0 hs.rgb.b1, ← hs.eq] at h
  exact h

/-- The order does not matter for these modes. -/
theorem Blend.both_orders {m : Mode} (hm : m.Commutative ∨ m.CommutativeExact) {w : World} {us ud : Bool} {s d r : Color} (hs : IsColor .rgbDeep s) (hd : IsColor .rgbDeep d)
    (hsp : s.space = d.space) (h : Yields (m.run us ud) w s d r) : Yields (m.run us ud) w s d r ∧ Yields (m.run ud us) w d s r := by
  have hcie : ¬ Cie .rgbDeep := by simp [Cie]
  obtain ⟨r', h1, h2⟩ : ∃ r', Yields (m.run us ud) w s d r' ∧ Yields (m.run ud us) w d s r' := by
    rcases hm with hm | hm
    · exact C59_commutative m hm w us ud .rgbDeep (by simp) s d hs hd hsp (fun h => absurd h hcie)
    · exact C59_commutative_exact m hm w us ud .rgbDeep (by simp) s d hs hd hsp (fun h => absurd h hcie)
  obtain rfl := h.unique h1
  exact ⟨h, h2⟩

omit [ExactModel] in
/-- Converted colours keep their colour space. -/
theorem Blend.spaces_eq {w : World} {ts td : ColorType} (hts : ts ≠ .undefined) (htd : td ≠ .undefined) {s d s' d' : Color} (hs : IsColor ts s) (hd : IsColor td d)
    (vs : Converts w s .rgbDeep s') (vd : Converts w d .rgbDeep d') (hsp : s.space = d.space) : s'.space = d'.space := by
  rw [converts_iff hts (by simp) hs] at vs
  rw [converts_iff htd (by simp) hd] at vd
  obtain ⟨q, h', -, e⟩ := call_to (h := ⟨w, [s]⟩) (i := 0) hts (by simp) hs rfl vs
  obtain ⟨q', h'', -, e'⟩ := call_to (h := ⟨w, [d]⟩) (i := 0) htd (by simp) hd rfl vd
  rw [e.space, e'.space, hsp]

/-- C60: white of any opacity leaves an opaque colour as it is under multiply and darken, in either order. -/
theorem C60_white_neutral (m : Mode) (hm : m.WhiteNeutral) (w : World) (us : Bool) (s d : Color) (sa d0 d1 d2 : ℝ) (hs : IsPixel s 1 1 1 sa)
    (hd : IsPixel d d0 d1 d2 1) (hsp : s.space = d.space) : Yields (m.run us true) w s d d ∧ Yields (m.run true us) w d s d := by
  have key : ∀ i {x : ℝ}, x ≤ 1 → m.formula (sa - 1) i 1 x = x := by
    intro i x hx; cases hm <;> simp [Mode.formula, hx]
  refine Blend.both_orders (by cases hm <;> simp [Mode.Commutative.multiply, Mode.Commutative.darken]) hs.rgb.col hd.rgb.col hsp ?_
  exact Blend.neutral m (by cases hm <;> trivial) w us s d 1 1 1 sa d0 d1 d2 hs hd hsp (key 0 hd.rgb.r1) (key 1 hd.rgb.g1) (key 2 hd.rgb.b1)

/-- C60: black of any opacity leaves an opaque colour as it is under screen, lighten, linear_dodge and difference, in either order. -/
theorem C60_black_neutral (m : Mode) (hm : m.BlackNeutral) (w : World) (us : Bool) (s d : Color) (sa d0 d1 d2 : ℝ) (hs : IsPixel s 0 0 0 sa)
    (hd : IsPixel d d0 d1 d2 1) (hsp : s.space = d.space) : Yields (m.run us true) w s d d ∧ Yields (m.run true us) w d s d := by
  have key : ∀ i {x : ℝ}, 0 ≤ x → m.formula (sa - 1) i 0 x = x := by
    intro i x hx; cases hm <;> simp [Mode.formula, hx, abs_of_nonneg]
  refine Blend.both_orders ?_ hs.rgb.col hd.rgb.col hsp ?_
  · cases hm
    · exact Or.inl .screen
    · exact Or.inl .lighten
    · exact Or.inl .linear_dodge
    · exact Or.inr .difference
  · exact Blend.neutral m (by cases hm <;> trivial) w us s d 0 0 0 sa d0 d1 d2 hs hd hsp (key 0 hd.rgb.r0) (key 1 hd.rgb.g0) (key 2 hd.rgb.b0)

/-- C60: opaque white with any colour of any opacity gives opaque white under screen and lighten, in either order. -/
theorem C60_white_absorbing (m : Mode) (hm : m.WhiteAbsorbing) (w : World) (ud : Bool) (s d : Color) (d0 d1 d2 da : ℝ) (hs : IsPixel s 1 1 1 1)
    (hd : IsPixel d d0 d1 d2 da) (hsp : s.space = d.space) : Yields (m.run true ud) w s d s ∧ Yields (m.run ud true) w d s s := by
  have key : ∀ i {x : ℝ}, x ≤ 1 → m.formula (1 - da) i 1 x = 1 := by
    intro i x hx; cases hm <;> simp [Mode.formula, hx]
  refine Blend.both_orders ?_ hs.rgb.col hd.rgb.col hsp ?_
  · cases hm
    · exact Or.inl .screen
    · exact Or.inl .lighten
  · exact Blend.absorbing m (by cases hm <;> trivial) w ud s d 1 1 1 d0 d1 d2 da hs hd hsp (key 0 hd.rgb.r1) (key 1 hd.rgb.g1) (key 2 hd.rgb.b1)

/-- C60: opaque black with any colour of any opacity gives opaque black under multiply and darken, in either order. -/
theorem C60_black_absorbing (m : Mode) (hm : m.BlackAbsorbing) (w : World) (ud : Bool) (s d : Color) (d0 d1 d2 da : ℝ) (hs : IsPixel s 0 0 0 1)
    (hd : IsPixel d d0 d1 d2 da) (hsp : s.space = d.space) : Yields (m.run true ud) w s d s ∧ Yields (m.run ud true) w d s s := by
  have key : ∀ i {x : ℝ}, 0 ≤ x → m.formula (1 - da) i 0 x = 0 := by
    intro i x hx; cases hm <;> simp [Mode.formula, hx]
  refine Blend.both_orders ?_ hs.rgb.col hd.rgb.col hsp ?_
  · cases hm
    · exact Or.inl .multiply
    · exact Or.inl .darken
  · exact Blend.absorbing m (by cases hm <;> trivial) w ud s d 0 0 0 d0 d1 d2 da hs hd hsp (key 0 hd.rgb.r0) (key 1 hd.rgb.g0) (key 2 hd.rgb.b0)

/-- C60 for colours of other types: a colour that converts to white of any opacity leaves one that converts to an opaque RGB_DEEP colour as it is under multiply and darken, up to
conversion through RGB_DEEP to the type of the first operand. -/
theorem C60_white_neutral_any (m : Mode) (hm : m.WhiteNeutral) (w : World) (us : Bool) (ts td : ColorType) (hts : ts ≠ .undefined ∧ ts ≠ .lchAb ∧ ts ≠ .lchUv)
    (htd : td ≠ .undefined ∧ td ≠ .lchAb ∧ td ≠ .lchUv) (s d s' d' : Color) (hs : IsColor ts s) (hd : IsColor td d) (hsp : s.space = d.space) (vs : Converts w s .rgbDeep s')
    (vd : Converts w d .rgbDeep d') (sa d0 d1 d2 : ℝ) (ps : IsPixel s' 1 1 1 sa) (pd : IsPixel d' d0 d1 d2 1) :
    (∀ r, Converts w d' ts r → Yields (m.run us true) w s d r) ∧ ∀ r, Converts w d' td r → Yields (m.run true us) w d s r := by
  have hn : ∀ rand, m ≠ .dissolve rand := by intro rand; cases hm <;> simp
  obtain ⟨h1, h2⟩ := C60_white_neutral m hm w us s' d' sa d0 d1 d2 ps pd (Blend.spaces_eq hts.1 htd.1 hs hd vs vd hsp)
  exact ⟨fun r hr => C57_any_type m hn w us true ts td hts htd.1 s d s' d' d' r hs hd hsp vs vd h1 hr,
    fun r hr => C57_any_type m hn w true us td ts htd hts.1 d s d' s' d' r hd hs hsp.symm vd vs h2 hr⟩

/-- C60 for colours of other types: likewise black under screen, lighten, linear_dodge and difference. -/
theorem C60_black_neutral_any (m : Mode) (hm : m.BlackNeutral) (w : World) (us : Bool) (ts td : ColorType) (hts : ts ≠ .undefined ∧ ts ≠ .lchAb ∧ ts ≠ .lchUv)
    (htd : td ≠ .undefined ∧ td ≠ .lchAb ∧ td ≠ .lchUv) (s d s' d' : Color) (hs : IsColor ts s) (hd : IsColor td d) (hsp : s.space = d.space) (vs : Converts w s .rgbDeep s')
    (vd : Converts w d .rgbDeep d') (sa d0 d1 d2 : ℝ) (ps : IsPixel s' 0 0 0 sa) (pd : IsPixel d' d0 d1 d2 1) :
    (∀ r, Converts w d' ts r → Yields (m.run us true) w s d r) ∧ ∀ r, Converts w d' td r → Yields (m.run true us) w d s r := by
  have hn : ∀ rand, m ≠ .dissolve rand := by intro rand; cases hm <;> simp
  obtain ⟨h1, h2⟩ := C60_black_neutral m hm w us s' d' sa d0 d1 d2 ps pd (Blend.spaces_eq hts.1 htd.1 hs hd vs vd hsp)
  exact ⟨fun r hr => C57_any_type m hn w us true ts td hts htd.1 s d s' d' d' r hs hd hsp vs vd h1 hr,
    fun r hr => C57_any_type m hn w true us td ts htd hts.1 d s d' s' d' r hd hs hsp.symm vd vs h2 hr⟩

/-- C60 for colours of other types: one that converts to opaque white hides any other under screen and lighten. -/
theorem C60_white_absorbing_any (m : Mode) (hm : m.WhiteAbsorbing) (w : World) (ud : Bool) (ts td : ColorType) (hts : ts ≠ .undefined ∧ ts ≠ .lchAb ∧ ts ≠ .lchUv)
    (htd : td ≠ .undefined ∧ td ≠ .lchAb ∧ td ≠ .lchUv) (s d s' d' : Color) (hs : IsColor ts s) (hd : IsColor td d) (hsp : s.space = d.space) (vs : Converts w s .rgbDeep s')
    (vd : Converts w d .rgbDeep d') (d0 d1 d2 da : ℝ) (ps : IsPixel s' 1 1 1 1) (pd : IsPixel d' d0 d1 d2 da) :
    (∀ r, Converts w s' ts r → Yields (m.run true ud) w s d r) ∧ ∀ r, Converts w s' td r → Yields (m.run ud true) w d s r := by
  have hn : ∀ rand, m ≠ .dissolve rand := by intro rand; cases hm <;> simp
  obtain ⟨h1, h2⟩ := C60_white_absorbing m hm w ud s' d' d0 d1 d2 da ps pd (Blend.spaces_eq hts.1 htd.1 hs hd vs vd hsp)
  exact ⟨fun r hr => C57_any_type m hn w true ud ts td hts htd.1 s d s' d' s' r hs hd hsp vs vd h1 hr,
    fun r hr => C57_any_type m hn w ud true td ts htd hts.1 d s d' s' s' r hd hs hsp.symm vd vs h2 hr⟩

/-- C60 for colours of other types: one that converts to opaque black hides any other under multiply and darken. -/
theorem C60_black_absorbing_any (m : Mode) (hm : m.BlackAbsorbing) (w : World) (ud : Bool) (ts td : ColorType) (hts : ts ≠ .undefined ∧ ts ≠ .lchAb ∧ ts ≠ .lchUv)
    (htd : td ≠ .undefined ∧ td ≠ .lchAb ∧ td ≠ .lchUv) (s d s' d' : Color) (hs : IsColor ts s) (hd : IsColor td d) (hsp : s.space = d.space) (vs : Converts w s .rgbDeep s')
    (vd : Converts w d .rgbDeep d') (d0 d1 d2 da : ℝ) (ps : IsPixel s' 0 0 0 1) (pd : IsPixel d' d0 d1 d2 da) :
    (∀ r, Converts w s' ts r → Yields (m.run true ud) w s d r) ∧ ∀ r, Converts w s' td r → Yields (m.run ud true) w d s r := by
  have hn : ∀ rand, m ≠ .dissolve rand := by intro rand; cases hm <;> simp
  obtain ⟨h1, h2⟩ := C60_black_absorbing m hm w ud s' d' d0 d1 d2 da ps pd (Blend.spaces_eq hts.1 htd.1 hs hd vs vd hsp)
  exact ⟨fun r hr => C57_any_type m hn w true ud ts td hts htd.1 s d s' d' s' r hs hd hsp vs vd h1 hr,
    fun r hr => C57_any_type m hn w ud true td ts htd hts.1 d s d' s' s' r hd hs hsp.symm vd vs h2 hr⟩

/-- Case: half-transparent white multiplied with orange; opaque white screened with half-transparent orange. -/
example (w : World) : Yields (ColorBlend.multiply true true) w (obj .rgbDeep 1 1 1 (fin 0.5) none) (obj .rgbDeep 1 0.5 0 (fin 1) none) (obj .rgbDeep 1 0.5 0 (fin 1) none) ∧
    Yields (ColorBlend.screen true true) w (obj .rgbDeep 1 1 1 (fin 1) none) (obj .rgbDeep 1 0.5 0 (fin 0.5) none) (obj .rgbDeep 1 1 1 (fin 1) none) :=
  ⟨(C60_white_neutral .multiply .multiply w true _ _ 0.5 1 0.5 0 (isPixel_obj none (by norm_num) (by norm_num) (by norm_num) (by norm_num))
    (isPixel_obj none (by norm_num) (by norm_num) (by norm_num) (by norm_num)) rfl).1,
   (C60_white_absorbing .screen .screen w true _ _ 1 0.5 0 0.5 (isPixel_obj none (by norm_num) (by norm_num) (by norm_num) (by norm_num))
    (isPixel_obj none (by norm_num) (by norm_num) (by norm_num) (by norm_num)) rfl).1⟩
example (w : World) : Yields (ColorBlend.difference false true) w (obj .rgbDeep 0 0 0 (fin 0.5) none) (obj .rgbDeep 1 0.5 0 (fin 1) none) (obj .rgbDeep 1 0.5 0 (fin 1) none) ∧
    Yields (ColorBlend.darken true true) w (obj .rgbDeep 0 0 0 (fin 1) none) (obj .rgbDeep 1 0.5 0 (fin 0.5) none) (obj .rgbDeep 0 0 0 (fin 1) none) :=
  ⟨(C60_black_neutral .difference .difference w false _ _ 0.5 1 0.5 0 (isPixel_obj none (by norm_num) (by norm_num) (by norm_num) (by norm_num))
    (isPixel_obj none (by norm_num) (by norm_num) (by norm_num) (by norm_num)) rfl).1,
   (C60_black_absorbing .darken .darken w true _ _ 1 0.5 0 0.5 (isPixel_obj none (by norm_num) (by norm_num) (by norm_num) (by norm_num))
    (isPixel_obj none (by norm_num) (by norm_num) (by norm_num) (by norm_num)) rfl).1⟩

end

/-- C60, any rounding: overlay is hard_light with the two colours (of the same type) swapped. -/
theorem C60_overlay (w : World) (us ud : Bool) (t : ColorType) (ht : t ≠ .undefined ∧ t ≠ .lchAb ∧ t ≠ .lchUv) (s d : Color) (hs : IsColor t s) (hd : IsColor t d)
    (hsp : s.space = d.space) (hw : Cie t → w.Usable s.space) :
    ∃ r, Yields (ColorBlend.overlay us ud) w s d r ∧ Yields (ColorBlend.hard_light ud us) w d s r :=
  Blend.mode_swap .overlay .hard_light (by simp) (by simp) (fun _ _ _ _ _ => rfl) w us ud t ht s d hs hd hsp hw

/-- Case: two HSV colours. -/
example (w : World) : ∃ s d r, Color.construct .hsv [10, 1, 1] 1 none = ok s ∧ Color.construct .hsv [100, 1, 1] (fin 0.5) none = ok d ∧
    Yields (ColorBlend.overlay true false) w s d r ∧ Yields (ColorBlend.hard_light false true) w d s r := by
  obtain ⟨s, hs⟩ := Conv.construct_total .hsv (vs := [10, 1, 1]) 1 none rfl
  obtain ⟨d, hd⟩ := Conv.construct_total .hsv (vs := [100, 1, 1]) (fin 0.5) none rfl
  have cs := (Conv.construct_result (by simp) (by rfl) hs)
  have cd := (Conv.construct_result (by simp) (by rfl) hd)
  obtain ⟨r, h1, h2⟩ := C60_overlay w true false .hsv (by simp) s d cs.col cd.col (by rw [cs.space, cd.space]) (by simp [Cie])
  exact ⟨s, d, r, hs, hd, h1, h2⟩

/-! ## C61: dissolve -/

open Classical in
/-- The value of dissolve on two opaque RGB_DEEP colours, for any two colours `sc`, `dc` of equal opacity the operator was called with. -/
theorem Blend.dissolve_value [IntExact] (rand : Nat → Nat) (us ud : Bool) (sc dc s d : Color) (ha : sc.alpha - dc.alpha = fin 0) (s0 s1 s2 d0 d1 d2 : ℝ) (hs : IsPixel s s0 s1 s2 1)
    (hd : IsPixel d d0 d1 d2 1) (hr : ∀ x ∈ [s0, s1, s2, d0, d1, d2], Representable x) :
    Blend.gpdVal s d us ud true (Blend.modeF (.dissolve rand) sc dc) = ok (obj .rgbDeep (if 25 ≤ rand 0 % 101 then d0 else s0) (if 25 ≤ rand 1 % 101 then d1 else s1)
      (if 25 ≤ rand 2 % 101 then d2 else s2) (fin 1) s.space) := by
  have z0 : rnd (0 : ℝ) = fin 0 := by simpa using IntExact.rnd_int 0 (by norm_num)
  have z1 : rnd (1 : ℝ) = fin 1 := by simpa using IntExact.rnd_int 1 (by norm_num)
  have es := hs.eq
  have ed := hd.eq
  have hf : ∀ i (x y : ℝ), Blend.modeF (.dissolve rand) sc dc i (fin x) (fin y) = fin (if 25 ≤ rand i % 101 then y else x) := by
    intro i x y
    have e : ((OfNat.ofNat 25 : ℝ) ≤ ((rand i % 101 : ℕ) : ℝ)) ↔ 25 ≤ rand i % 101 := by
      rw [show (OfNat.ofNat 25 : ℝ) = ((25 : ℕ) : ℝ) by norm_num]; exact Nat.cast_le
    simp only [Blend.modeF, ColorBlend.dissolve_func, ha, gt_iff_lt, ge_iff_le, zero_def, lit_def, fin_lt, fin_le, lt_self_iff_false, if_false, e]
    split_ifs <;> rfl
  generalize Blend.modeF (.dissolve rand) sc dc = F at hf
  have hz : ∀ (b : Bool) (x : ℝ), (fin 0 : Fl) * (if b = true then fin x else fin 0) = fin 0 := by
    intro b x; cases b <;> simp [fin_mul, z0]
  have hz' : ∀ (b : Bool), (fin 0 : Fl) * (if b = true then fin 1 else fin 0) = fin 0 := fun b => hz b 1
  have key : ∀ v : ℝ, Representable v → 0 ≤ v → v ≤ 1 → Color.clamp (fin 0 + fin 0 + fin 1 * fin v) (fin 1) (fin 0) / fin 1 = fin v := by
    intro v hv v0 v1
    have hv : rnd v = fin v := hv
    rw [fin_add, add_zero, z0, fin_mul, one_mul, hv, fin_add, zero_add, hv]
    simp only [Color.clamp, fmin_fin, fmax_fin, min_eq_left v1, max_eq_left v0]
    rw [fin_div _ _ one_ne_zero, div_one, hv]
  have k : ∀ (i : Nat) (x y : ℝ), Representable x → Representable y → 0 ≤ x → x ≤ 1 → 0 ≤ y → y ≤ 1 →
      Color.clamp (fin 0 + fin 0 + fin 1 * fin (if 25 ≤ rand i % 101 then y else x)) (fin 1) (fin 0) / fin 1 = fin (if 25 ≤ rand i % 101 then y else x) := by
    intro i x y a b c1 c2 c3 c4
    split_ifs
    · exact key y b c3 c4
    · exact key x a c1 c2
  have hone : (fin 0 : Fl) + fin 0 + fin 1 = fin 1 := by
    rw [fin_add, add_zero, z0, fin_add, zero_add, z1]
  have e1 : (fin 1 : Fl) * (fin 1 - fin 1) = fin 0 := by rw [fin_sub, sub_self, z0, fin_mul, mul_zero, z0]
  have e2 : (fin 1 : Fl) * fin 1 = fin 1 := by rw [fin_mul, one_mul, z1]
  rw [es, ed]
  have hres := Blend.gpd_result (fin s0) (fin s1) (fin s2) (fin 1) (fin d0) (fin d1) (fin d2) (fin 1) us ud true F s.space d.space
  simp only [Blend.result, hf, zero_def, one_def, e1, e2, hz, hz', hone, if_true] at hres
  have hob : ∀ (x y z : ℝ) sp, obj .rgbDeep x y z (fin 1) sp = ⟨.rgbDeep, .rgbDeep, [fin x, fin y, fin z], fin 1, fin 1, fin 0, sp⟩ := by
    intro x y z sp; simp only [obj, Color.maxOf, Color.minOf, zero_def, one_def]
  simp only [hob]
  rw [hres]
  simp only [Color.alphaDivide, zero_def, feq_fin, one_ne_zero, if_false, List.map_cons, List.map_nil]
  simp only [List.mem_cons, List.not_mem_nil, or_false, forall_eq_or_imp, forall_eq] at hr
  obtain ⟨r0, r1, r2, q0, q1, q2⟩ := hr
  rw [k 0 s0 d0 r0 q0 hs.rgb.r0 hs.rgb.r1 hd.rgb.r0 hd.rgb.r1, k 1 s1 d1 r1 q1 hs.rgb.g0 hs.rgb.g1 hd.rgb.g0 hd.rgb.g1,
    k 2 s2 d2 r2 q2 hs.rgb.b0 hs.rgb.b1 hd.rgb.b0 hd.rgb.b1]

open Classical in
/-- C61, for every rounding that keeps small integers and all representable channel values: whatever `rand()` returns, dissolving two opaque RGB_DEEP colours gives an
opaque colour each of whose channels is that channel of the destination if the remainder of the random number by 101 is at least 25, and of the source otherwise. -/
theorem C61_dissolve [IntExact] (rand : Nat → Nat) (w : World) (us ud : Bool) (s d : Color) (s0 s1 s2 d0 d1 d2 : ℝ) (hs : IsPixel s s0 s1 s2 1) (hd : IsPixel d d0 d1 d2 1)
    (hsp : s.space = d.space) (hr : ∀ x ∈ [s0, s1, s2, d0, d1, d2], Representable x) :
    Yields (ColorBlend.dissolve rand us ud) w s d (obj .rgbDeep (if 25 ≤ rand 0 % 101 then d0 else s0) (if 25 ≤ rand 1 % 101 then d1 else s1)
      (if 25 ≤ rand 2 % 101 then d2 else s2) (fin 1) s.space) := by
  have z0 : rnd (0 : ℝ) = fin 0 := by simpa using IntExact.rnd_int 0 (by norm_num)
  have ha : s.alpha - d.alpha = fin 0 := by
    have h1 : s.alpha = fin 1 := by rw [hs.eq, obj_alpha _ _ _ _ _ _ rfl]
    have h2 : d.alpha = fin 1 := by rw [hd.eq, obj_alpha _ _ _ _ _ _ rfl]
    rw [h1, h2, fin_sub, sub_self, z0]
  have hg := Blend.dissolve_value rand us ud s d s d ha s0 s1 s2 d0 d1 d2 hs hd hr
  have hy := Blend.operator_rgb (f := Blend.modeF (.dissolve rand)) (us := us) (ud := ud) (ub := true) (w := w) hs.rgb.col hd.rgb.col hsp hg
  rw [← Blend.mode_eq] at hy
  exact hy

open Classical in
/-- C61 for colours of other types and of equal opacity that convert to opaque RGB_DEEP colours with representable channels: the picked channels are those of the converted colours, and the
result is converted to the type of the source. -/
theorem C61_any_type [IntExact] (rand : Nat → Nat) (w : World) (us ud : Bool) (ts td : ColorType) (hts : ts ≠ .undefined ∧ ts ≠ .lchAb ∧ ts ≠ .lchUv) (htd : td ≠ .undefined)
    (s d s' d' r : Color) (hs : IsColor ts s) (hd : IsColor td d) (hsp : s.space = d.space) (al : ℝ) (has : s.alpha = fin al) (had : d.alpha = fin al)
    (vs : Converts w s .rgbDeep s') (vd : Converts w d .rgbDeep d') (s0 s1 s2 d0 d1 d2 : ℝ)
    (ps : IsPixel s' s0 s1 s2 1) (pd : IsPixel d' d0 d1 d2 1) (hr : ∀ x ∈ [s0, s1, s2, d0, d1, d2], Representable x)
    (vr : Converts w (obj .rgbDeep (if 25 ≤ rand 0 % 101 then d0 else s0) (if 25 ≤ rand 1 % 101 then d1 else s1) (if 25 ≤ rand 2 % 101 then d2 else s2) (fin 1) s.space) ts r) :
    Yields (ColorBlend.dissolve rand us ud) w s d r := by
  have z0 : rnd (0 : ℝ) = fin 0 := by simpa using IntExact.rnd_int 0 (by norm_num)
  have ha : s.alpha - d.alpha = fin 0 := by rw [has, had, fin_sub, sub_self, z0]
  have hg := Blend.dissolve_value rand us ud s d s' d' ha s0 s1 s2 d0 d1 d2 ps pd hr
  rw [converts_iff hts.1 (by simp) hs] at vs
  rw [converts_iff htd (by simp) hd] at vd
  have hsp' : s'.space = s.space := by
    obtain ⟨q, h', -, e⟩ := call_to (h := ⟨w, [s]⟩) (i := 0) hts.1 (by simp) hs rfl vs
    exact e.space
  have hcol : ∀ x y z : ℝ, IsColor .rgbDeep (obj .rgbDeep x y z (fin 1) s.space) := fun _ _ _ => ⟨rfl, rfl, rfl, rfl, rfl⟩
  rw [hsp'] at hg
  have hy := Blend.operator_yields (f := Blend.modeF (.dissolve rand)) (us := us) (ud := ud) (ub := true) (w := w) hts.1 hts.2.1 hts.2.2 htd hs hd hsp vs vd hg (hcol _ _ _)
    ((converts_iff (by simp) hts.1 (hcol _ _ _)).mp vr)
  rw [← Blend.mode_eq] at hy
  exact hy

/-- Case: a stream that picks red from the source and the rest from the destination. -/
example [IntExact] (w : World) : Yields (ColorBlend.dissolve (fun i => if i = 0 then 101 else 50) true true) w (obj .rgbDeep 1 0 0 (fin 1) none)
    (obj .rgbDeep 0 1 1 (fin 1) none) (obj .rgbDeep 1 1 1 (fin 1) none) := by
  have z0 : Representable 0 := by simpa [Representable] using IntExact.rnd_int 0 (by norm_num)
  have z1 : Representable 1 := by simpa [Representable] using IntExact.rnd_int 1 (by norm_num)
  have := C61_dissolve (fun i => if i = 0 then 101 else 50) w true true _ _ 1 0 0 0 1 1 (isPixel_obj none (by norm_num) (by norm_num) (by norm_num) (by norm_num))
    (isPixel_obj none (by norm_num) (by norm_num) (by norm_num) (by norm_num)) rfl (by simp [z0, z1])
  simpa using this

/-! ## C62: the definitions of the modes -/

section
variable [ExactModel]

omit [FloatModel] [ExactModel] in
theorem Blend.limit_standard (m : Mode) (hm : ¬ m.Nonstandard) (i : Nat) {s d : ℝ} (s0 : 0 ≤ s) (s1 : s ≤ 1) (d0 : 0 ≤ d) (d1 : d ≤ 1) :
    limit (m.formula 0 i s d) = limit (standard m s d) := by
  cases m <;> simp only [Mode.Nonstandard, not_true_eq_false] at hm <;> simp only [Mode.formula, standard]
  case screen => congr 1; ring
  case overlay => split_ifs <;> congr 1 <;> ring
  case hard_light => split_ifs <;> congr 1 <;> ring
  case darken => split_ifs with h; · rw [min_eq_left h]
                 · rw [min_eq_right (not_le.mp h).le]
  case lighten => split_ifs with h; · rw [max_eq_right h]
                  · rw [max_eq_left (not_le.mp h).le]
  case color_dodge => split_ifs <;> first | rfl | rw [min_comm]
  case linear_light => split_ifs <;> congr 1; ring
  case hard_mix =>
    by_cases h : s + d < 1
    · rw [if_pos h, if_neg (not_le.mpr h)]
    · rw [if_neg h, if_pos (not_lt.mp h)]
  case difference => split_ifs with h; · rw [abs_of_nonpos (by linarith), neg_sub]
                     · rw [abs_of_nonneg (by linarith [not_le.mp h])]
  case divide => split_ifs <;> first | rfl | simp_all
  case plus_lighter => simp [limit]
  case plus_darker =>
    simp only [limit]
    rcases le_total 0 (s + d - 1) with h | h
    · rw [max_eq_right h]
    · rw [max_eq_left h, min_eq_right (by linarith), max_eq_left h]; simp
  case exclusion => congr 1; ring

/-- C62 for every mode but color_burn, vivid_light, soft_light and subtract: blending opaque RGB_DEEP colours gives what defines the mode, in every channel. -/
theorem C62_standard_partial (m : Mode) (hm : ¬ m.Nonstandard) (w : World) (us ud : Bool) (s d : Color) (s0 s1 s2 d0 d1 d2 : ℝ) (hs : IsPixel s s0 s1 s2 1)
    (hd : IsPixel d d0 d1 d2 1) (hsp : s.space = d.space) : Yields (m.run us ud) w s d
      (obj .rgbDeep (limit (standard m s0 d0)) (limit (standard m s1 d1)) (limit (standard m s2 d2)) (fin 1) s.space) := by
  have hf : m.Finite := by cases m <;> first | trivial | exact absurd trivial hm
  have h := C57_opaque m hf w us ud s d s0 s1 s2 d0 d1 d2 hs hd hsp
  rwa [Blend.limit_standard m hm 0 hs.rgb.r0 hs.rgb.r1 hd.rgb.r0 hd.rgb.r1, Blend.limit_standard m hm 1 hs.rgb.g0 hs.rgb.g1 hd.rgb.g0 hd.rgb.g1,
    Blend.limit_standard m hm 2 hs.rgb.b0 hs.rgb.b1 hd.rgb.b0 hd.rgb.b1] at h

/-- C62 fails for color_burn: every channel is 1 minus the defined value. -/
theorem C62_burn_violated (w : World) (us ud : Bool) (s d : Color) (s0 s1 s2 d0 d1 d2 : ℝ) (hs : IsPixel s s0 s1 s2 1)
    (hd : IsPixel d d0 d1 d2 1) (hsp : s.space = d.space) : Yields (ColorBlend.color_burn us ud) w s d
      (obj .rgbDeep (1 - limit (standard .color_burn s0 d0)) (1 - limit (standard .color_burn s1 d1)) (1 - limit (standard .color_burn s2 d2)) (fin 1) s.space) := by
  have key : ∀ (i : Nat) {x y : ℝ}, 0 ≤ x → y ≤ 1 → limit (Mode.formula .color_burn 0 i x y) = 1 - limit (standard .color_burn x y) := by
    intro i x y x0 y1
    simp only [Mode.formula, standard, limit]
    split_ifs with h1 h2
    · norm_num
    · norm_num
    · have h3 : 0 ≤ (1 - y) / x := div_nonneg (by linarith) x0
      rw [min_comm ((1 - y) / x) 1]
      have h4 : 0 ≤ min 1 ((1 - y) / x) := le_min zero_le_one h3
      have h5 : min 1 ((1 - y) / x) ≤ 1 := min_le_left _ _
      generalize min 1 ((1 - y) / x) = v at h4 h5 ⊢
      rw [min_eq_right h5, max_eq_right h4, min_eq_right (by linarith), max_eq_right (by linarith)]
      ring
  have h := C57_opaque .color_burn trivial w us ud s d s0 s1 s2 d0 d1 d2 hs hd hsp
  rwa [key 0 hs.rgb.r0 hd.rgb.r1, key 1 hs.rgb.g0 hd.rgb.g1, key 2 hs.rgb.b0 hd.rgb.b1] at h

/-- Witnesses for the other three modes. -/
inductive BlendSpec.Mode.Wrong : Mode → ℝ → ℝ → Prop
  | vivid_light : Wrong .vivid_light 0.25 0.5
  | soft_light : Wrong .soft_light 0.75 0.5
  | subtract : Wrong .subtract 0.25 0.75

/-- C62 fails for vivid_light (burn and dodge are exchanged), soft_light (a factor is missing its complement) and subtract (the source minus the destination). -/
theorem C62_violated (m : Mode) (v u : ℝ) (hm : m.Wrong v u) (w : World) (us ud : Bool) (sp : Option Nat) : ∃ x : ℝ,
    Yields (m.run us ud) w (obj .rgbDeep v v v (fin 1) sp) (obj .rgbDeep u u u (fin 1) sp) (obj .rgbDeep x x x (fin 1) sp) ∧ x ≠ limit (standard m v u) := by
  have hv : (0 ≤ v ∧ v ≤ 1) ∧ 0 ≤ u ∧ u ≤ 1 := by cases hm <;> norm_num
  have h := C57_opaque m (by cases hm <;> trivial) w us ud _ _ v v v u u u (isPixel_obj sp hv.1 hv.1 hv.1 (by norm_num)) (isPixel_obj sp hv.2 hv.2 hv.2 (by norm_num)) rfl
  refine ⟨limit (m.formula 0 0 v u), ?_, ?_⟩
  · cases hm <;> exact h
  · cases hm <;> norm_num [Mode.formula, standard, limit]

/-- soft_light jumps: just above a source channel of 0.5 the result is nearly white, whatever the destination. -/
theorem C62_soft_light_jump (w : World) (us ud : Bool) (sp : Option Nat) (e u : ℝ) (he : 0 < e) (he' : e ≤ 1 / 2) (hu : 0 ≤ u ∧ u ≤ 1) : ∃ x : ℝ,
    Yields (ColorBlend.soft_light us ud) w (obj .rgbDeep (1 / 2 + e) (1 / 2 + e) (1 / 2 + e) (fin 1) sp) (obj .rgbDeep u u u (fin 1) sp) (obj .rgbDeep x x x (fin 1) sp) ∧
      1 - e ≤ x := by
  have hv : 0 ≤ 1 / 2 + e ∧ 1 / 2 + e ≤ 1 := ⟨by linarith, by linarith⟩
  have h := C57_opaque .soft_light trivial w us ud _ _ (1 / 2 + e) (1 / 2 + e) (1 / 2 + e) u u u (isPixel_obj sp hv hv hv (by norm_num)) (isPixel_obj sp hu hu hu (by norm_num)) rfl
  refine ⟨limit (Mode.formula .soft_light 0 0 (1 / 2 + e) u), h, ?_⟩
  simp only [Mode.formula, limit]
  rw [if_neg (by linarith)]
  refine le_max_of_le_right (le_min (by linarith) ?_)
  nlinarith [mul_nonneg hu.1 he.le]

/-- Case: pin_light of opaque colours; burn of a mid grey and itself should be black but is white. -/
example (w : World) : Yields (ColorBlend.pin_light true true) w (obj .rgbDeep 0.25 1 0 (fin 1) none) (obj .rgbDeep 1 0.5 1 (fin 1) none) (obj .rgbDeep 0.5 1 0 (fin 1) none) := by
  have := C62_standard_partial .pin_light id w true true _ _ 0.25 1 0 1 0.5 1 (isPixel_obj none (by norm_num) (by norm_num) (by norm_num) (by norm_num))
    (isPixel_obj none (by norm_num) (by norm_num) (by norm_num) (by norm_num)) rfl
  norm_num [standard, limit] at this ⊢
  exact this
example (w : World) : Yields (ColorBlend.color_burn true true) w (obj .rgbDeep 0.5 0.5 0.5 (fin 1) none) (obj .rgbDeep 0.5 0.5 0.5 (fin 1) none) (obj .rgbDeep 1 1 1 (fin 1) none) := by
  have := C62_burn_violated w true true _ _ 0.5 0.5 0.5 0.5 0.5 0.5 (isPixel_obj none (by norm_num) (by norm_num) (by norm_num) (by norm_num))
    (isPixel_obj none (by norm_num) (by norm_num) (by norm_num) (by norm_num)) rfl
  norm_num [standard, limit] at this ⊢
  exact this

/-! ## C89: normal blending -/

/-- The operator that normal blending is, by the two flags. -/
def BlendSpec.normalOp : Bool → Bool → PdOp
  | true, true => .over
  | true, false => .src
  | false, false => .in_
  | false, true => .atop

/-- C89 with the operators that the documentation names, and atop where it says dest: alpha and colour are those of the Porter-Duff table. -/
theorem C89_normal_partial (us ud : Bool) (w : World) (s d : Color) (s0 s1 s2 sa d0 d1 d2 da : ℝ) (hs : IsPixel s s0 s1 s2 sa) (hd : IsPixel d d0 d1 d2 da)
    (hsp : s.space = d.space) : ∃ r r0 r1 r2, Yields (ColorBlend.normal us ud) w s d r ∧
      IsPixel r r0 r1 r2 (sa * (normalOp us ud).Fa sa da + da * (normalOp us ud).Fb sa da) ∧
      Unmultiplied (sa * (normalOp us ud).Fa sa da + da * (normalOp us ud).Fb sa da) (sa * (normalOp us ud).Fa sa da * s0 + da * (normalOp us ud).Fb sa da * d0) r0 ∧
      Unmultiplied (sa * (normalOp us ud).Fa sa da + da * (normalOp us ud).Fb sa da) (sa * (normalOp us ud).Fa sa da * s1 + da * (normalOp us ud).Fb sa da * d1) r1 ∧
      Unmultiplied (sa * (normalOp us ud).Fa sa da + da * (normalOp us ud).Fb sa da) (sa * (normalOp us ud).Fa sa da * s2 + da * (normalOp us ud).Fb sa da * d2) r2 := by
  obtain ⟨r, r0, r1, r2, h, hp, -, h0, h1, h2⟩ := C51_table (normalOp us ud) w s d s0 s1 s2 sa d0 d1 d2 da hs hd hsp
  refine ⟨r, r0, r1, r2, ?_, hp, h0, h1, h2⟩
  cases us <;> cases ud <;> exact h

/-- C89 fails with only the destination region: two opaque colours give the source, not the destination. -/
theorem C89_violated (w : World) (s d : Color) (s0 s1 s2 d0 d1 d2 : ℝ) (hs : IsPixel s s0 s1 s2 1) (hd : IsPixel d d0 d1 d2 1) (hsp : s.space = d.space) (hne : s ≠ d) :
    Yields (ColorBlend.normal false true) w s d s ∧ Yields PorterDuff.dest w s d d ∧ ¬ Yields (ColorBlend.normal false true) w s d d := by
  have h1 : Yields (ColorBlend.normal false true) w s d s := by
    have h := C57_opaque .normal trivial w false true s d s0 s1 s2 d0 d1 d2 hs hd hsp
    have key : ∀ x : ℝ, 0 ≤ x → x ≤ 1 → limit x = x := by intro x a b; rw [limit, min_eq_right b, max_eq_right a]
    simp only [Mode.formula, key _ hs.rgb.r0 hs.rgb.r1, key _ hs.rgb.g0 hs.rgb.g1, key _ hs.rgb.b0 hs.rgb.b1, ← hs.eq] at h
    exact h
  refine ⟨h1, ?_, fun h => hne (h1.unique h)⟩
  obtain ⟨r, r0, r1, r2, h, hp, hsp', h0, h1, h2⟩ := C51_table .dest w s d s0 s1 s2 1 d0 d1 d2 1 hs hd hsp
  norm_num [PdOp.Fa, PdOp.Fb, Unmultiplied] at hp h0 h1 h2
  have : r = d := by rw [hp.eq, hd.eq, hsp', hsp, h0, h1, h2]
  rw [this] at h
  exact h

/-- Case: red and blue. -/
example (w : World) : ¬ Yields (ColorBlend.normal false true) w (obj .rgbDeep 1 0 0 (fin 1) none) (obj .rgbDeep 0 0 1 (fin 1) none) (obj .rgbDeep 0 0 1 (fin 1) none) :=
  (C89_violated w _ _ 1 0 0 0 0 1 (isPixel_obj none (by norm_num) (by norm_num) (by norm_num) (by norm_num))
    (isPixel_obj none (by norm_num) (by norm_num) (by norm_num) (by norm_num)) rfl (by simp [obj])).2.2
example (w : World) : ∃ r r0 r1 r2, Yields (ColorBlend.normal true true) w (obj .rgbDeep 1 0 0 (fin 0.5) none) (obj .rgbDeep 0 0 1 (fin 0.5) none) r ∧ IsPixel r r0 r1 r2 0.75 := by
  obtain ⟨r, r0, r1, r2, h, hp, -⟩ := C89_normal_partial true true w _ _ 1 0 0 0.5 0 0 1 0.5 (isPixel_obj none (by norm_num) (by norm_num) (by norm_num) (by norm_num))
    (isPixel_obj none (by norm_num) (by norm_num) (by norm_num) (by norm_num)) rfl
  refine ⟨r, r0, r1, r2, h, ?_⟩
  norm_num [normalOp, PdOp.Fa, PdOp.Fb] at hp ⊢
  exact hp

end

/-! ## C88: no existing object changes -/

/-- Every function that combines two colours. -/
inductive BlendSpec.Call where
  | compose (op : PdOp)
  | blend (m : Mode) (us ud : Bool)
  | hueBlend (m : HueMode) (us ud : Bool)

noncomputable def BlendSpec.Call.run : Call → Ptr → Ptr → Prog Ptr
  | .compose op => op.run
  | .blend m us ud => m.run us ud
  | .hueBlend m us ud => m.run us ud

theorem Blend.hue_lch (m : HueMode) (us ud : Bool) {ts td : ColorType} (hts : ts = .lchAb ∨ ts = .lchUv) (htd : td ≠ .undefined) {s d : Color} (hs : IsColor ts s)
    (hd : IsColor td d) (h : Heap) (hws : h.world.Usable s.space) (hwd : h.world.Usable d.space) (i j : Nat) (hi : h.colors[i]? = some s) (hj : h.colors[j]? = some d) :
    ∃ h', m.run us ud (some i) (some j) h = (ok none, h') ∧ Frame h h' := by
  have hu : ts ≠ .undefined := by rcases hts with rfl | rfl <;> simp
  have hn : ¬ Cie .hcy := by simp [Cie]
  obtain ⟨s', e1, c1, p1⟩ := val_to_total hu (t := .hcy) (by simp) hs (w := h.world) (fun _ _ => hws)
  obtain ⟨d', e2, c2, p2⟩ := val_to_total htd (t := .hcy) (by simp) hd (w := h.world) (fun _ _ => hwd)
  obtain ⟨sh, sc, sl, es⟩ := Conv.isColor_three (by rfl) c1
  obtain ⟨dh, dc, dl, ed⟩ := Conv.isColor_three (by rfl) c2
  obtain ⟨r, hr⟩ := Conv.construct_total .hcy (vs := [if m.fromSource 0 then sh else dh, if m.fromSource 1 then sc else dc, if m.fromSource 2 then sl else dl]) s'.alpha s'.space rfl
  obtain ⟨q1, g1, a1, k1⟩ := call_to (t := .hcy) hu (by simp) hs hi e1
  have f1 := k1.frame (by rintro ⟨-, hc⟩; exact hn hc)
  obtain ⟨q2, g2, a2, k2⟩ := call_to (t := .hcy) htd (by simp) hd (f1.2 _ _ hj) (k1.world ▸ e2)
  have f2 := k2.frame (by rintro ⟨-, hc⟩; exact hn hc)
  set g3 : Heap := ⟨g2.world, g2.colors ++ [r]⟩ with hg3
  have f3 : Frame g2 g3 := Frame.alloc g2 r
  have a1' : Converter.to_hcy (some i) h = (ok (some q1), g1) := a1
  have a2' : Converter.to_hcy (some j) g1 = (ok (some q2), g2) := a2
  have l1 := k1.here
  have l2 := k2.here
  have ls : g3.colors[i]? = some s := (f1.trans (f2.trans f3)).2 _ _ hi
  refine ⟨g3, ?_, f1.trans (f2.trans f3)⟩
  rw [es] at hr l1
  rw [ed] at l2
  have a4 : Converter.convertTo (some g2.colors.length) s.ctype g3 = (ok none, g3) := by
    rw [hs.ctype]; rcases hts with rfl | rfl <;> rfl
  cases m <;> simp only [HueMode.run, ColorBlend.hue, ColorBlend.saturation, ColorBlend.color, ColorBlend.luminosity, Prog.bind_def, a1', a2', load, l1, l2, lift,
    Conv.get3_0, Conv.get3_1, Conv.get3_2, ok_bind] <;>
    simp only [HueMode.fromSource, if_true, Bool.false_eq_true, if_false] at hr <;>
    simp only [hr, Prog.alloc, ← hg3, ls, a4]

/-- C88: composing and blending colours of any types, wherever they are stored and also if both are the same object, returns normally and changes no existing object; the
result is a new object, except that an LCH source gives a null pointer. -/
theorem C88_pure (call : Call) (ts td : ColorType) (hts : ts ≠ .undefined) (htd : td ≠ .undefined) (s d : Color) (hs : IsColor ts s) (hd : IsColor td d)
    (hsp : s.space = d.space) (h : Heap) (hw : Cie ts ∨ Cie td → h.world.Usable s.space) (i j : Nat) (hi : h.colors[i]? = some s) (hj : h.colors[j]? = some d) :
    ∃ q h', call.run (some i) (some j) h = (ok q, h') ∧ Frame h h' ∧ (q = none ↔ ts = .lchAb ∨ ts = .lchUv) ∧ (∀ k, q = some k → h.colors.length ≤ k) := by
  have key : ∀ r, Yields call.run h.world s d r → ¬ (ts = .lchAb ∨ ts = .lchUv) → ∃ q h', call.run (some i) (some j) h = (ok q, h') ∧ Frame h h' ∧
      (q = none ↔ ts = .lchAb ∨ ts = .lchUv) ∧ (∀ k, q = some k → h.colors.length ≤ k) := by
    intro r hy hl
    obtain ⟨q, h', e1, -, e3, e4⟩ := hy h i j rfl hi hj
    exact ⟨some q, h', e1, e4, by simp only [reduceCtorEq, false_iff]; exact hl, fun k hk => by obtain rfl := Option.some.inj hk; exact e3⟩
  have null : (∃ h', call.run (some i) (some j) h = (ok none, h') ∧ Frame h h') → (ts = .lchAb ∨ ts = .lchUv) → ∃ q h', call.run (some i) (some j) h = (ok q, h') ∧ Frame h h' ∧
      (q = none ↔ ts = .lchAb ∨ ts = .lchUv) ∧ (∀ k, q = some k → h.colors.length ≤ k) := by
    rintro ⟨h', e1, e2⟩ hl
    exact ⟨none, h', e1, e2, by simp [hl], by simp⟩
  by_cases hl : ts = .lchAb ∨ ts = .lchUv
  · have hw' : h.world.Usable s.space := hw (Or.inl (by rcases hl with rfl | rfl <;> simp [Cie]))
    refine null ?_ hl
    have gen : ∀ us ud ub (f : Color → Color → Nat → Fl → Fl → Fl), ∃ h', Blend.operator us ud ub f (some i) (some j) h = (ok none, h') ∧ Frame h h' := by
      intro us ud ub f
      obtain ⟨s', e1, c1, -⟩ := val_to_total hts (t := .rgbDeep) (by simp) hs (w := h.world) (fun _ _ => hw')
      obtain ⟨d', e2, c2, -⟩ := val_to_total htd (t := .rgbDeep) (by simp) hd (w := h.world) (fun _ _ => hsp ▸ hw')
      obtain ⟨r, g1, -, -⟩ := Blend.gpd_color c1 c2 us ud ub (f s d)
      exact Blend.operator_lch hl htd hs hd hsp e1 e2 g1 h i j rfl hi hj
    cases call with
    | compose op => show ∃ h', op.run _ _ h = _ ∧ _; rw [Blend.run_eq]; exact gen _ _ _ _
    | blend m us ud => show ∃ h', m.run us ud _ _ h = _ ∧ _; rw [Blend.mode_eq]; exact gen _ _ _ _
    | hueBlend m us ud => exact Blend.hue_lch m us ud hl htd hs hd h hw' (hsp ▸ hw') i j hi hj
  · have hl' : ts ≠ .undefined ∧ ts ≠ .lchAb ∧ ts ≠ .lchUv := ⟨hts, fun e => hl (Or.inl e), fun e => hl (Or.inr e)⟩
    cases call with
    | compose op =>
      obtain ⟨_, _, _, r, -, -, -, -, hy, -⟩ := C51_any_type_total op h.world ts td hl' htd s d hs hd hsp hw
      exact key r hy hl
    | blend m us ud =>
      obtain ⟨_, _, _, r, -, -, -, -, -, hy, -⟩ := C57_any_type_total m h.world us ud ts td hl' htd s d hs hd hsp hw
      exact key r hy hl
    | hueBlend m us ud =>
      obtain ⟨_, _, _, r, _, _, _, _, _, _, -, -, -, -, -, -, hy, -⟩ := C58_hue_modes m us ud h.world ts td hl' htd s d hs hd (fun hc => hw (Or.inl hc)) (fun hc => hsp ▸ hw (Or.inr hc))
      exact key r hy hl

/-- Case: a colour blended with itself. -/
example (w : World) : ∃ s q h', Color.construct .cmyk [1, 0, 0, 0] 1 none = ok s ∧ ColorBlend.hue true true (some 0) (some 0) ⟨w, [s]⟩ = (ok (some q), h') ∧
    h'.colors[0]? = some s ∧ 1 ≤ q := by
  obtain ⟨s, hs⟩ := Conv.construct_total .cmyk (vs := [1, 0, 0, 0]) 1 none rfl
  have cs := (Conv.construct_result (by simp) (by rfl) hs)
  obtain ⟨q, h', h1, h2, h3, h4⟩ := C88_pure (.hueBlend .hue true true) .cmyk .cmyk (by simp) (by simp) s s cs.col cs.col rfl ⟨w, [s]⟩ (by simp [Cie]) 0 0 rfl rfl
  cases q with
  | none => simp at h3
  | some k => exact ⟨s, k, h', hs, h1, h2.2 _ _ rfl, h4 k rfl⟩

end
