import Verif.BlendLemmas

/-!
# Compositing (C51–C56)
-/

open Outcome Fl Prog ObjectSpec ConvSpec Hue BlendSpec

namespace BlendSpec

/-- The twelve operators. -/
inductive PdOp where
  | src | dest | atop | dest_atop | over | dest_over | in_ | dest_in | out | dest_out | x_or | clear

/-- The function that implements an operator. -/
noncomputable def PdOp.run [FloatModel] : PdOp → Ptr → Ptr → Prog Ptr
  | .src => PorterDuff.src
  | .dest => PorterDuff.dest
  | .atop => PorterDuff.atop
  | .dest_atop => PorterDuff.dest_atop
  | .over => PorterDuff.over
  | .dest_over => PorterDuff.dest_over
  | .in_ => PorterDuff.in_
  | .dest_in => PorterDuff.dest_in
  | .out => PorterDuff.out
  | .dest_out => PorterDuff.dest_out
  | .x_or => PorterDuff.x_or
  | .clear => PorterDuff.clear

/-- The table of Porter and Duff: the factor of the source, from the two alpha values. -/
def PdOp.Fa : PdOp → ℝ → ℝ → ℝ
  | .src, _, _ => 1
  | .dest, _, _ => 0
  | .atop, _, da => da
  | .dest_atop, _, da => 1 - da
  | .over, _, _ => 1
  | .dest_over, _, da => 1 - da
  | .in_, _, da => da
  | .dest_in, _, _ => 0
  | .out, _, da => 1 - da
  | .dest_out, _, _ => 0
  | .x_or, _, da => 1 - da
  | .clear, _, _ => 0

/-- The table of Porter and Duff: the factor of the destination. -/
def PdOp.Fb : PdOp → ℝ → ℝ → ℝ
  | .src, _, _ => 0
  | .dest, _, _ => 1
  | .atop, sa, _ => 1 - sa
  | .dest_atop, sa, _ => sa
  | .over, sa, _ => 1 - sa
  | .dest_over, _, _ => 1
  | .in_, _, _ => 0
  | .dest_in, sa, _ => sa
  | .out, _, _ => 0
  | .dest_out, sa, _ => 1 - sa
  | .x_or, sa, _ => 1 - sa
  | .clear, _, _ => 0

/-- `x` is the colour value whose product with alpha `α` is `p`; 0 if there is no colour. -/
def Unmultiplied (α p x : ℝ) : Prop := x * α = p ∧ (α = 0 → x = 0)

/-- Pairs of operators that are each other's mirror image. -/
inductive Mirrored : PdOp → PdOp → Prop
  | over : Mirrored .dest_over .over
  | in_ : Mirrored .dest_in .in_
  | out : Mirrored .dest_out .out
  | atop : Mirrored .dest_atop .atop
  | src : Mirrored .dest .src
  | x_or : Mirrored .x_or .x_or
  | clear : Mirrored .clear .clear

/-- All components between 0 and 1. -/
def UnitComps (c : Color) : Prop := ∀ x ∈ c.comps, InRange 0 1 x

end BlendSpec

/-! ### Helper lemmas -/

namespace Blend

/-- Flags and function of an operator. -/
def usOf : PdOp → Bool
  | .src | .dest_atop | .over | .dest_over | .out | .x_or => true
  | _ => false
def udOf : PdOp → Bool
  | .dest | .atop | .over | .dest_over | .dest_out | .x_or => true
  | _ => false
def ubOf : PdOp → Bool
  | .out | .dest_out | .x_or | .clear => false
  | _ => true
def fOf (op : PdOp) (s d : Fl) : Fl := match op with
  | .src | .atop | .over | .in_ => s
  | .dest | .dest_atop | .dest_over | .dest_in => d
  | _ => 0

theorem run_eq [FloatModel] (op : PdOp) : op.run = operator (usOf op) (udOf op) (ubOf op) (fun _ _ _ s d => fOf op s d) := by
  cases op <;> rfl

/-- The value of the both region. -/
def vOf (op : PdOp) (s d : ℝ) : ℝ := match op with
  | .src | .atop | .over | .in_ => s
  | .dest | .dest_atop | .dest_over | .dest_in => d
  | _ => 0

theorem fOf_fin (op : PdOp) (s d : ℝ) : fOf op (fin s) (fin d) = fin (vOf op s d) := by
  cases op <;> simp [fOf, vOf]

theorem alphaOf_table (op : PdOp) (sa da : ℝ) : alphaOf (usOf op) (udOf op) (ubOf op) sa da = sa * op.Fa sa da + da * op.Fb sa da := by
  cases op <;> simp only [alphaOf, usOf, udOf, ubOf, weight, PdOp.Fa, PdOp.Fb, if_true, if_false, Bool.false_eq_true] <;> ring

theorem comb_table (op : PdOp) (sa da s d : ℝ) : comb (usOf op) (udOf op) sa da s d (vOf op s d) = sa * op.Fa sa da * s + da * op.Fb sa da * d := by
  cases op <;> simp only [comb, usOf, udOf, vOf, weight, PdOp.Fa, PdOp.Fb, if_true, if_false, Bool.false_eq_true] <;> ring

theorem factors (op : PdOp) {sa da : ℝ} (s0 : 0 ≤ sa) (s1 : sa ≤ 1) (d0 : 0 ≤ da) (d1 : da ≤ 1) : 0 ≤ op.Fa sa da ∧ 0 ≤ op.Fb sa da ∧
    sa * op.Fa sa da + da * op.Fb sa da ≤ 1 := by
  have p1 := mul_nonneg s0 d0
  have p2 := mul_nonneg (sub_nonneg.mpr s1) (sub_nonneg.mpr d1)
  have p3 := mul_nonneg s0 (sub_nonneg.mpr d1)
  have p4 := mul_nonneg d0 (sub_nonneg.mpr s1)
  cases op <;> simp only [PdOp.Fa, PdOp.Fb] <;> refine ⟨?_, ?_, ?_⟩ <;> nlinarith

theorem quot_unmult (op : PdOp) {sa da s d : ℝ} (a0 : 0 ≤ sa) (a1 : sa ≤ 1) (b0 : 0 ≤ da) (b1 : da ≤ 1) (s0 : 0 ≤ s) (s1 : s ≤ 1) (d0 : 0 ≤ d) (d1 : d ≤ 1) :
    let x := quot (alphaOf (usOf op) (udOf op) (ubOf op) sa da) (unit (comb (usOf op) (udOf op) sa da s d (vOf op s d)))
    Unmultiplied (sa * op.Fa sa da + da * op.Fb sa da) (sa * op.Fa sa da * s + da * op.Fb sa da * d) x ∧ 0 ≤ x ∧ x ≤ 1 := by
  obtain ⟨f1, f2, f3⟩ := factors op a0 a1 b0 b1
  rw [alphaOf_table, comb_table]
  generalize op.Fa sa da = A at *
  generalize op.Fb sa da = B at *
  have hA : 0 ≤ sa * A := mul_nonneg a0 f1
  have hB : 0 ≤ da * B := mul_nonneg b0 f2
  have p0 : 0 ≤ sa * A * s + da * B * d := by positivity
  have p1 : sa * A * s + da * B * d ≤ sa * A + da * B := by nlinarith
  rw [unit_of p0 (p1.trans f3)]
  intro x
  by_cases h : sa * A + da * B = 0
  · have hp : sa * A * s + da * B * d = 0 := le_antisymm (by linarith) p0
    have : x = 0 := by simp only [x, quot, if_pos h, hp]
    rw [this]
    exact ⟨⟨by rw [h, hp]; ring, fun _ => rfl⟩, le_refl _, zero_le_one⟩
  · have hpos : 0 < sa * A + da * B := lt_of_le_of_ne (by positivity) (Ne.symm h)
    have : x = (sa * A * s + da * B * d) / (sa * A + da * B) := by simp only [x, quot, if_neg h]
    rw [this]
    exact ⟨⟨div_mul_cancel₀ _ h, fun hh => absurd hh h⟩, div_nonneg p0 hpos.le, (div_le_one hpos).mpr p1⟩

end Blend

theorem BlendSpec.Unmultiplied.unique {α p x y : ℝ} (h : Unmultiplied α p x) (h' : Unmultiplied α p y) : x = y := by
  by_cases ha : α = 0
  · rw [h.2 ha, h'.2 ha]
  · exact mul_right_cancel₀ ha (h.1.trans h'.1.symm)

theorem BlendSpec.IsPixel.eq [FloatModel] {c : Color} {r g b a : ℝ} (h : IsPixel c r g b a) : c = obj .rgbDeep r g b (fin a) c.space := by
  have := Hue.rgb_eq h.rgb
  rwa [h.alpha] at this

theorem BlendSpec.isPixel_obj {r g b a : ℝ} (sp : Option Nat) (hr : 0 ≤ r ∧ r ≤ 1) (hg : 0 ≤ g ∧ g ≤ 1) (hb : 0 ≤ b ∧ b ≤ 1) (ha : 0 ≤ a ∧ a ≤ 1) :
    IsPixel (obj .rgbDeep r g b (fin a) sp) r g b a :=
  ⟨⟨⟨rfl, rfl, rfl, rfl, rfl⟩, rfl, hr.1, hr.2, hg.1, hg.2, hb.1, hb.2⟩, rfl, ha.1, ha.2⟩

section
variable [FloatModel]

/-! ## C51: the Porter-Duff table -/

section
variable [ExactModel]

/-- C51: every operator on RGB_DEEP colours computes the alpha and the premultiplied channels of the table.  The result is a new RGB_DEEP object in
the same colour space, no existing object changes (both are part of `Yields`). -/
theorem C51_table (op : PdOp) (w : World) (s d : Color) (s0 s1 s2 sa d0 d1 d2 da : ℝ) (hs : IsPixel s s0 s1 s2 sa) (hd : IsPixel d d0 d1 d2 da)
    (hsp : s.space = d.space) : ∃ r r0 r1 r2, Yields op.run w s d r ∧ IsPixel r r0 r1 r2 (sa * op.Fa sa da + da * op.Fb sa da) ∧ r.space = s.space ∧
      Unmultiplied (sa * op.Fa sa da + da * op.Fb sa da) (sa * op.Fa sa da * s0 + da * op.Fb sa da * d0) r0 ∧
      Unmultiplied (sa * op.Fa sa da + da * op.Fb sa da) (sa * op.Fa sa da * s1 + da * op.Fb sa da * d1) r1 ∧
      Unmultiplied (sa * op.Fa sa da + da * op.Fb sa da) (sa * op.Fa sa da * s2 + da * op.Fb sa da * d2) r2 := by
  have hg := Blend.gpd_exact hs.rgb.col hs.rgb.comps hs.alpha hd.rgb.col hd.rgb.comps hd.alpha (Blend.usOf op) (Blend.udOf op) (Blend.ubOf op)
    (fun _ s d => Blend.fOf op s d) (Blend.fOf_fin op s0 d0) (Blend.fOf_fin op s1 d1) (Blend.fOf_fin op s2 d2)
  have hy := Blend.operator_rgb (f := fun _ _ _ s d => Blend.fOf op s d) (w := w) hs.rgb.col hd.rgb.col hsp hg
  rw [← Blend.run_eq] at hy
  obtain ⟨f1, f2, f3⟩ := Blend.factors op hs.a0 hs.a1 hd.a0 hd.a1
  have q0 := Blend.quot_unmult op hs.a0 hs.a1 hd.a0 hd.a1 hs.rgb.r0 hs.rgb.r1 hd.rgb.r0 hd.rgb.r1
  have q1 := Blend.quot_unmult op hs.a0 hs.a1 hd.a0 hd.a1 hs.rgb.g0 hs.rgb.g1 hd.rgb.g0 hd.rgb.g1
  have q2 := Blend.quot_unmult op hs.a0 hs.a1 hd.a0 hd.a1 hs.rgb.b0 hs.rgb.b1 hd.rgb.b0 hd.rgb.b1
  refine ⟨_, _, _, _, hy, ?_, rfl, q0.1, q1.1, q2.1⟩
  have ha := Blend.alphaOf_table op sa da
  rw [← ha] at f3 ⊢
  exact isPixel_obj _ q0.2 q1.2 q2.2 ⟨by rw [ha]; exact add_nonneg (mul_nonneg hs.a0 f1) (mul_nonneg hd.a0 f2), f3⟩

/-- Case: half-transparent red over half-transparent blue. -/
example (w : World) : ∃ r, Yields PdOp.over.run w (obj .rgbDeep 1 0 0 (fin 0.5) none) (obj .rgbDeep 0 0 1 (fin 0.5) none) r ∧
    IsPixel r (2 / 3) 0 (1 / 3) 0.75 := by
  obtain ⟨r, r0, r1, r2, h1, h2, -, h3, h4, h5⟩ := C51_table .over w _ _ 1 0 0 0.5 0 0 1 0.5 (isPixel_obj none (by norm_num) (by norm_num) (by norm_num) (by norm_num))
    (isPixel_obj none (by norm_num) (by norm_num) (by norm_num) (by norm_num)) rfl
  simp only [PdOp.Fa, PdOp.Fb] at h2 h3 h4 h5
  norm_num at h2
  have e0 : r0 = 2 / 3 := h3.unique ⟨by norm_num, by norm_num⟩
  have e1 : r1 = 0 := h4.unique ⟨by norm_num, by norm_num⟩
  have e2 : r2 = 1 / 3 := h5.unique ⟨by norm_num, by norm_num⟩
  subst e0 e1 e2
  refine ⟨r, h1, ?_⟩
  norm_num
  exact h2

end

/-- C51 for other types, any rounding: the operators convert both colours to RGB_DEEP, combine there and convert the result to the type of the source. -/
theorem C51_any_type (op : PdOp) (w : World) (ts td : ColorType) (hts : ts ≠ .undefined ∧ ts ≠ .lchAb ∧ ts ≠ .lchUv) (htd : td ≠ .undefined)
    (s d s' d' r r' : Color) (hs : IsColor ts s) (hd : IsColor td d) (hsp : s.space = d.space) (vs : Converts w s .rgbDeep s') (vd : Converts w d .rgbDeep d')
    (hy : Yields op.run w s' d' r) (vr : Converts w r ts r') : Yields op.run w s d r' := by
  rw [Blend.run_eq] at hy ⊢
  exact Blend.operator_any hts.1 hts.2.1 hts.2.2 htd hs hd hsp vs vd hy vr

/-- The hypotheses of `C51_any_type` can be met for all types: the conversions exist if the colour space is usable. -/
theorem C51_any_type_total (op : PdOp) (w : World) (ts td : ColorType) (hts : ts ≠ .undefined ∧ ts ≠ .lchAb ∧ ts ≠ .lchUv) (htd : td ≠ .undefined)
    (s d : Color) (hs : IsColor ts s) (hd : IsColor td d) (hsp : s.space = d.space) (hw : Cie ts ∨ Cie td → w.Usable s.space) :
    ∃ s' d' r r', Converts w s .rgbDeep s' ∧ Converts w d .rgbDeep d' ∧ Yields op.run w s' d' r ∧ Converts w r ts r' ∧ Yields op.run w s d r' ∧
      IsColor ts r' ∧ r'.space = s.space := by
  have hn : ¬ Cie .rgbDeep := by simp [Cie]
  obtain ⟨s', e1, c1, p1⟩ := val_to_total hts.1 (t := .rgbDeep) (by simp) hs (w := w) (fun h _ => hw (h.elim Or.inl (fun h => absurd h hn)))
  obtain ⟨d', e2, c2, p2⟩ := val_to_total htd (t := .rgbDeep) (by simp) hd (w := w) (fun h _ => hsp ▸ hw (h.elim Or.inr (fun h => absurd h hn)))
  obtain ⟨r, g1, g2, g3⟩ := Blend.gpd_color c1 c2 (Blend.usOf op) (Blend.udOf op) (Blend.ubOf op) (fun _ s d => Blend.fOf op s d)
  obtain ⟨r', e3, c3, p3⟩ := val_to_total (s := .rgbDeep) (by simp) hts.1 g2 (w := w)
    (fun h _ => by rw [g3, p1]; exact hw (h.elim (fun h => absurd h hn) Or.inl))
  have hy : Yields op.run w s' d' r := by
    rw [Blend.run_eq]
    exact Blend.operator_rgb (f := fun _ _ _ s d => Blend.fOf op s d) c1 c2 (by rw [p1, p2, hsp]) g1
  have v1 := (converts_iff hts.1 (by simp) hs).mpr e1
  have v2 := (converts_iff htd (by simp) hd).mpr e2
  have v3 := (converts_iff (by simp) hts.1 g2).mpr e3
  exact ⟨s', d', r, r', v1, v2, hy, v3, C51_any_type op w ts td hts htd s d s' d' r r' hs hd hsp v1 v2 hy v3, c3, by rw [p3, g3, p1]⟩

/-- Case: an HSV source and a CMYK destination. -/
example (w : World) : ∃ s d r, Color.construct .hsv [120, 1, 1] 1 none = ok s ∧ Color.construct .cmyk [0, 0, 0, 0] 1 none = ok d ∧ Yields PdOp.x_or.run w s d r := by
  obtain ⟨s, hs⟩ := Conv.construct_total .hsv (vs := [120, 1, 1]) 1 none rfl
  obtain ⟨d, hd⟩ := Conv.construct_total .cmyk (vs := [0, 0, 0, 0]) 1 none rfl
  have cs := (Conv.construct_result (by simp) (by rfl) hs)
  have cd := (Conv.construct_result (by simp) (by rfl) hd)
  obtain ⟨s', d', r, r', -, -, -, -, h, -⟩ := C51_any_type_total .x_or w .hsv .cmyk (by simp) (by simp) s d cs.col cd.col (by rw [cs.space, cd.space]) (by simp [Cie])
  exact ⟨s, d, r', hs, hd, h⟩

/-- C51 fails for LCH sources: every operator returns a null pointer. -/
theorem C51_lch_violated (op : PdOp) (ts td : ColorType) (hts : ts = .lchAb ∨ ts = .lchUv) (htd : td ≠ .undefined) (s d : Color) (hs : IsColor ts s) (hd : IsColor td d)
    (hsp : s.space = d.space) (h : Heap) (hw : h.world.Usable s.space) (i j : Nat) (hi : h.colors[i]? = some s) (hj : h.colors[j]? = some d) :
    ∃ h', op.run (some i) (some j) h = (ok none, h') := by
  have hu : ts ≠ .undefined := by rcases hts with rfl | rfl <;> simp
  obtain ⟨s', e1, c1, -⟩ := val_to_total hu (t := .rgbDeep) (by simp) hs (w := h.world) (fun _ _ => hw)
  obtain ⟨d', e2, c2, -⟩ := val_to_total htd (t := .rgbDeep) (by simp) hd (w := h.world) (fun _ _ => hsp ▸ hw)
  obtain ⟨r, g1, -, -⟩ := Blend.gpd_color c1 c2 (Blend.usOf op) (Blend.udOf op) (Blend.ubOf op) (fun _ s d => Blend.fOf op s d)
  rw [Blend.run_eq]
  obtain ⟨h', e, -⟩ := Blend.operator_lch (f := fun _ _ _ s d => Blend.fOf op s d) hts htd hs hd hsp e1 e2 g1 h i j rfl hi hj
  exact ⟨h', e⟩

/-- Case: an LCH colour over itself in a preset space. -/
example [StdSort] [ExactModel] : ∃ (h : Heap) (s : Color) (h' : Heap), Color.construct .lchAb [50, 0, 0] 1 (some 0) = ok s ∧ h.colors = [s] ∧
    PorterDuff.over (some 0) (some 0) h = (ok none, h') := by
  obtain ⟨s, hs⟩ := Conv.construct_total .lchAb (vs := [50, 0, 0]) 1 (some 0) rfl
  have cs := (Conv.construct_result (by simp) (by rfl) hs)
  obtain ⟨w, hw, -⟩ := exists_world .sRGB .sRGB
  obtain ⟨h', e⟩ := C51_lch_violated .over .lchAb .lchAb (by simp) (by simp) s s cs.col cs.col rfl ⟨w, [s]⟩ (by rw [cs.space]; exact hw) 0 0 rfl rfl
  exact ⟨_, s, h', hs, rfl, e⟩

/-! ## C52: mirrored pairs -/

/-- C52, any rounding: the mirrored operators agree on any two colours of the same type. -/
theorem C52_mirrored (op op' : PdOp) (hm : Mirrored op op') (w : World) (t : ColorType) (ht : t ≠ .undefined ∧ t ≠ .lchAb ∧ t ≠ .lchUv) (s d : Color)
    (hs : IsColor t s) (hd : IsColor t d) (hsp : s.space = d.space) (hw : Cie t → w.Usable s.space) : ∃ r, Yields op.run w s d r ∧ Yields op'.run w d s r := by
  have key : ∀ a b : Color, IsColor .rgbDeep a → IsColor .rgbDeep b → a.space = b.space →
      Blend.gpdVal a b (Blend.usOf op) (Blend.udOf op) (Blend.ubOf op) (fun _ s d => Blend.fOf op s d) =
      Blend.gpdVal b a (Blend.usOf op') (Blend.udOf op') (Blend.ubOf op') (fun _ s d => Blend.fOf op' s d) := by
    intro a b ha hb hab
    obtain ⟨a0, a1, a2, ea⟩ := Blend.rgb_form ha
    obtain ⟨b0, b1, b2, eb⟩ := Blend.rgb_form hb
    rw [ea, eb, Blend.gpd_result, Blend.gpd_result, hab]
    unfold Blend.result
    have e1 : b.malpha * a.malpha = a.malpha * b.malpha := mul_comm' _ _
    have e2 : ∀ x y, b.malpha * (1 - a.malpha) * x + a.malpha * (1 - b.malpha) * y = a.malpha * (1 - b.malpha) * y + b.malpha * (1 - a.malpha) * x :=
      fun x y => add_comm' _ _
    rw [e1]
    cases hm <;> simp only [Blend.usOf, Blend.udOf, Blend.ubOf, Blend.fOf, e2, Bool.false_eq_true, if_false, if_true]
  obtain ⟨s', d', r, r', v1, v2, hy, v3, hy', -⟩ := C51_any_type_total op w t t ht ht.1 s d hs hd hsp (fun h => hw (h.elim id id))
  refine ⟨r', hy', ?_⟩
  have e1 := (converts_iff ht.1 (by simp) hs).mp v1
  have e2 := (converts_iff ht.1 (by simp) hd).mp v2
  obtain ⟨_, _, -, c1⟩ := call_to (h := ⟨w, [s]⟩) (i := 0) ht.1 (by simp) hs rfl e1
  obtain ⟨_, _, -, c2⟩ := call_to (h := ⟨w, [d]⟩) (i := 0) ht.1 (by simp) hd rfl e2
  have hsp' : s'.space = d'.space := by rw [c1.space, c2.space, hsp]
  refine C51_any_type op' w t t ht ht.1 d s d' s' r r' hd hs hsp.symm v2 v1 ?_ v3
  obtain ⟨r₂, g1, -, -⟩ := Blend.gpd_color c1.col c2.col (Blend.usOf op) (Blend.udOf op) (Blend.ubOf op) (fun _ s d => Blend.fOf op s d)
  rw [Blend.run_eq] at hy ⊢
  have : r₂ = r := Yields.unique (Blend.operator_rgb (f := fun _ _ _ s d => Blend.fOf op s d) c1.col c2.col hsp' g1) hy
  subst this
  exact Blend.operator_rgb (f := fun _ _ _ s d => Blend.fOf op' s d) c2.col c1.col hsp'.symm (by rw [← key _ _ c1.col c2.col hsp']; exact g1)

/-- Case: two HSV colours. -/
example (w : World) : ∃ s d r, Color.construct .hsv [120, 1, 1] 1 none = ok s ∧ Color.construct .hsv [0, 1, 1] (fin 0.5) none = ok d ∧
    Yields PorterDuff.dest_over w s d r ∧ Yields PorterDuff.over w d s r := by
  obtain ⟨s, hs⟩ := Conv.construct_total .hsv (vs := [120, 1, 1]) 1 none rfl
  obtain ⟨d, hd⟩ := Conv.construct_total .hsv (vs := [0, 1, 1]) (fin 0.5) none rfl
  have cs := (Conv.construct_result (by simp) (by rfl) hs)
  have cd := (Conv.construct_result (by simp) (by rfl) hd)
  obtain ⟨r, h1, h2⟩ := C52_mirrored .dest_over .over .over w .hsv (by simp) s d cs.col cd.col (by rw [cs.space, cd.space]) (by simp [Cie])
  exact ⟨s, d, r, hs, hd, h1, h2⟩

/-! ## C53: identities -/

section
variable [ExactModel]

theorem BlendSpec.table_eq (op : PdOp) (w : World) (s d : Color) (s0 s1 s2 sa d0 d1 d2 da r0 r1 r2 a : ℝ) (hs : IsPixel s s0 s1 s2 sa) (hd : IsPixel d d0 d1 d2 da)
    (hsp : s.space = d.space) (ha : sa * op.Fa sa da + da * op.Fb sa da = a)
    (h0 : Unmultiplied a (sa * op.Fa sa da * s0 + da * op.Fb sa da * d0) r0) (h1 : Unmultiplied a (sa * op.Fa sa da * s1 + da * op.Fb sa da * d1) r1)
    (h2 : Unmultiplied a (sa * op.Fa sa da * s2 + da * op.Fb sa da * d2) r2) : Yields op.run w s d (obj .rgbDeep r0 r1 r2 (fin a) s.space) := by
  obtain ⟨r, x0, x1, x2, hy, hp, hspr, u0, u1, u2⟩ := C51_table op w s d s0 s1 s2 sa d0 d1 d2 da hs hd hsp
  subst ha
  have := hp.eq
  rw [hspr, u0.unique h0, u1.unique h1, u2.unique h2] at this
  rwa [this] at hy

/-- C53: an opaque source over anything is the source. -/
theorem C53_opaque_over (w : World) (s d : Color) (s0 s1 s2 d0 d1 d2 da : ℝ) (hs : IsPixel s s0 s1 s2 1) (hd : IsPixel d d0 d1 d2 da) (hsp : s.space = d.space) :
    Yields PorterDuff.over w s d s := by
  have := table_eq .over w s d s0 s1 s2 1 d0 d1 d2 da s0 s1 s2 1 hs hd hsp (by simp [PdOp.Fa, PdOp.Fb]) ⟨by simp [PdOp.Fa, PdOp.Fb], by simp⟩
    ⟨by simp [PdOp.Fa, PdOp.Fb], by simp⟩ ⟨by simp [PdOp.Fa, PdOp.Fb], by simp⟩
  rwa [← hs.eq] at this

/-- C53: a fully transparent source over a colour that is not fully transparent is that colour. -/
theorem C53_transparent_over_partial (w : World) (s d : Color) (s0 s1 s2 d0 d1 d2 da : ℝ) (hs : IsPixel s s0 s1 s2 0) (hd : IsPixel d d0 d1 d2 da) (hda : da ≠ 0)
    (hsp : s.space = d.space) : Yields PorterDuff.over w s d d := by
  have := table_eq .over w s d s0 s1 s2 0 d0 d1 d2 da d0 d1 d2 da hs hd hsp (by simp [PdOp.Fa, PdOp.Fb]) ⟨by simp [PdOp.Fa, PdOp.Fb, mul_comm], fun h => absurd h hda⟩
    ⟨by simp [PdOp.Fa, PdOp.Fb, mul_comm], fun h => absurd h hda⟩ ⟨by simp [PdOp.Fa, PdOp.Fb, mul_comm], fun h => absurd h hda⟩
  rwa [hsp, ← hd.eq] at this

/-- C53: `src` returns the source and `dest` the destination, unless that colour is fully transparent. -/
theorem C53_src_dest_partial (w : World) (s d : Color) (s0 s1 s2 sa d0 d1 d2 da : ℝ) (hs : IsPixel s s0 s1 s2 sa) (hd : IsPixel d d0 d1 d2 da) (hsp : s.space = d.space) :
    (sa ≠ 0 → Yields PorterDuff.src w s d s) ∧ (da ≠ 0 → Yields PorterDuff.dest w s d d) := by
  constructor
  · intro h
    have := table_eq .src w s d s0 s1 s2 sa d0 d1 d2 da s0 s1 s2 sa hs hd hsp (by simp [PdOp.Fa, PdOp.Fb]) ⟨by simp [PdOp.Fa, PdOp.Fb, mul_comm], fun e => absurd e h⟩
      ⟨by simp [PdOp.Fa, PdOp.Fb, mul_comm], fun e => absurd e h⟩ ⟨by simp [PdOp.Fa, PdOp.Fb, mul_comm], fun e => absurd e h⟩
    rwa [← hs.eq] at this
  · intro h
    have := table_eq .dest w s d s0 s1 s2 sa d0 d1 d2 da d0 d1 d2 da hs hd hsp (by simp [PdOp.Fa, PdOp.Fb]) ⟨by simp [PdOp.Fa, PdOp.Fb, mul_comm], fun e => absurd e h⟩
      ⟨by simp [PdOp.Fa, PdOp.Fb, mul_comm], fun e => absurd e h⟩ ⟨by simp [PdOp.Fa, PdOp.Fb, mul_comm], fun e => absurd e h⟩
    rwa [hsp, ← hd.eq] at this

/-- C53: `clear` always, and `out` of an opaque destination, give fully transparent black. -/
theorem C53_clear_out (w : World) (s d : Color) (s0 s1 s2 sa d0 d1 d2 da : ℝ) (hs : IsPixel s s0 s1 s2 sa) (hd : IsPixel d d0 d1 d2 da) (hsp : s.space = d.space) :
    Yields PorterDuff.clear w s d (obj .rgbDeep 0 0 0 (fin 0) s.space) ∧ (da = 1 → Yields PorterDuff.out w s d (obj .rgbDeep 0 0 0 (fin 0) s.space)) := by
  constructor
  · exact table_eq .clear w s d s0 s1 s2 sa d0 d1 d2 da 0 0 0 0 hs hd hsp (by simp [PdOp.Fa, PdOp.Fb]) ⟨by simp [PdOp.Fa, PdOp.Fb], by simp⟩
      ⟨by simp [PdOp.Fa, PdOp.Fb], by simp⟩ ⟨by simp [PdOp.Fa, PdOp.Fb], by simp⟩
  · rintro rfl
    exact table_eq .out w s d s0 s1 s2 sa d0 d1 d2 1 0 0 0 0 hs hd hsp (by simp [PdOp.Fa, PdOp.Fb]) ⟨by simp [PdOp.Fa, PdOp.Fb], by simp⟩
      ⟨by simp [PdOp.Fa, PdOp.Fb], by simp⟩ ⟨by simp [PdOp.Fa, PdOp.Fb], by simp⟩

/-- C53 does not hold for fully transparent colours that are not black: `src` of a fully transparent source, `dest` of a fully transparent destination and a
transparent source over such a destination all turn it black. -/
theorem C53_violated (w : World) (s d : Color) (s0 s1 s2 d0 d1 d2 : ℝ) (hs : IsPixel s s0 s1 s2 0) (hd : IsPixel d d0 d1 d2 0) (hsp : s.space = d.space) :
    (s0 ≠ 0 → ¬ Yields PorterDuff.src w s d s) ∧ (d0 ≠ 0 → ¬ Yields PorterDuff.dest w s d d ∧ ¬ Yields PorterDuff.over w s d d) := by
  have key : ∀ op : PdOp, Yields op.run w s d (obj .rgbDeep 0 0 0 (fin 0) s.space) := fun op =>
    table_eq op w s d s0 s1 s2 0 d0 d1 d2 0 0 0 0 0 hs hd hsp (by simp) ⟨by simp, by simp⟩ ⟨by simp, by simp⟩ ⟨by simp, by simp⟩
  have hc : ∀ {c : Color} {c0 c1 c2 : ℝ}, IsPixel c c0 c1 c2 0 → obj .rgbDeep 0 0 0 (fin 0) s.space = c → c0 = 0 := by
    intro c c0 c1 c2 h e
    have := h.rgb.comps
    rw [← e] at this
    simp only [obj, List.cons.injEq, fin_inj] at this
    exact this.1.symm
  exact ⟨fun h hy => h (hc hs ((key .src).unique hy)), fun h => ⟨fun hy => h (hc hd ((key .dest).unique hy)), fun hy => h (hc hd ((key .over).unique hy))⟩⟩

/-- Case: an opaque red source over half-transparent blue; a transparent source. -/
example (w : World) : Yields PorterDuff.over w (obj .rgbDeep 1 0 0 (fin 1) none) (obj .rgbDeep 0 0 1 (fin 0.5) none) (obj .rgbDeep 1 0 0 (fin 1) none) ∧
    Yields PorterDuff.over w (obj .rgbDeep 1 0 0 (fin 0) none) (obj .rgbDeep 0 0 1 (fin 0.5) none) (obj .rgbDeep 0 0 1 (fin 0.5) none) ∧
    ¬ Yields PorterDuff.src w (obj .rgbDeep 1 0 0 (fin 0) none) (obj .rgbDeep 0 0 1 (fin 0) none) (obj .rgbDeep 1 0 0 (fin 0) none) :=
  ⟨C53_opaque_over w _ _ 1 0 0 0 0 1 0.5 (isPixel_obj none (by norm_num) (by norm_num) (by norm_num) (by norm_num))
    (isPixel_obj none (by norm_num) (by norm_num) (by norm_num) (by norm_num)) rfl,
   C53_transparent_over_partial w _ _ 1 0 0 0 0 1 0.5 (isPixel_obj none (by norm_num) (by norm_num) (by norm_num) (by norm_num))
    (isPixel_obj none (by norm_num) (by norm_num) (by norm_num) (by norm_num)) (by norm_num) rfl,
   (C53_violated w _ _ 1 0 0 0 0 1 (isPixel_obj none (by norm_num) (by norm_num) (by norm_num) (by norm_num))
    (isPixel_obj none (by norm_num) (by norm_num) (by norm_num) (by norm_num)) rfl).1 (by norm_num)⟩

/-! ## C54: over is associative -/

/-- C54: compositing three layers with `over` does not depend on the grouping. -/
theorem C54_associative (w : World) (a b c : Color) (a0 a1 a2 aa b0 b1 b2 ba c0 c1 c2 ca : ℝ) (ha : IsPixel a a0 a1 a2 aa) (hb : IsPixel b b0 b1 b2 ba)
    (hc : IsPixel c c0 c1 c2 ca) (hab : a.space = b.space) (hbc : b.space = c.space) :
    ∃ ab bc r, Yields PorterDuff.over w a b ab ∧ Yields PorterDuff.over w b c bc ∧ Yields PorterDuff.over w ab c r ∧ Yields PorterDuff.over w a bc r := by
  obtain ⟨ab, x0, x1, x2, y1, p1, s1, u0, u1, u2⟩ := C51_table .over w a b a0 a1 a2 aa b0 b1 b2 ba ha hb hab
  obtain ⟨bc, z0, z1, z2, y2, p2, s2, v0, v1, v2⟩ := C51_table .over w b c b0 b1 b2 ba c0 c1 c2 ca hb hc hbc
  obtain ⟨r, r0, r1, r2, y3, p3, s3, t0, t1, t2⟩ := C51_table .over w ab c x0 x1 x2 _ c0 c1 c2 ca p1 hc (by rw [s1, hab, hbc])
  refine ⟨ab, bc, r, y1, y2, y3, ?_⟩
  simp only [PdOp.Fa, PdOp.Fb] at *
  have halpha : aa * 1 + (ba * 1 + ca * (1 - ba)) * (1 - aa) = (aa * 1 + ba * (1 - aa)) * 1 + ca * (1 - (aa * 1 + ba * (1 - aa))) := by ring
  have hch : ∀ {x y z ai bi ci r : ℝ}, Unmultiplied (aa * 1 + ba * (1 - aa)) (aa * 1 * ai + ba * (1 - aa) * bi) x →
      Unmultiplied (ba * 1 + ca * (1 - ba)) (ba * 1 * bi + ca * (1 - ba) * ci) z →
      Unmultiplied ((aa * 1 + ba * (1 - aa)) * 1 + ca * (1 - (aa * 1 + ba * (1 - aa)))) ((aa * 1 + ba * (1 - aa)) * 1 * x + ca * (1 - (aa * 1 + ba * (1 - aa))) * ci) r →
      Unmultiplied ((aa * 1 + ba * (1 - aa)) * 1 + ca * (1 - (aa * 1 + ba * (1 - aa)))) (aa * 1 * ai + (ba * 1 + ca * (1 - ba)) * (1 - aa) * z) r := by
    rintro x y z ai bi ci r ⟨e1, -⟩ ⟨e2, -⟩ ⟨e3, e4⟩
    refine ⟨?_, e4⟩
    have : (ba * 1 + ca * (1 - ba)) * (1 - aa) * z = (1 - aa) * (z * (ba * 1 + ca * (1 - ba))) := by ring
    rw [this, e2, e3]
    have : (aa * 1 + ba * (1 - aa)) * 1 * x = x * (aa * 1 + ba * (1 - aa)) := by ring
    rw [this, e1]
    ring
  have := table_eq .over w a bc a0 a1 a2 aa z0 z1 z2 _ r0 r1 r2 _ ha p2 (by rw [s2, hab]) halpha (hch (y := 0) u0 v0 t0) (hch (y := 0) u1 v1 t1) (hch (y := 0) u2 v2 t2)
  have e := p3.eq
  rw [s3, s1] at e
  rwa [← e] at this

/-- Case: three half-transparent layers. -/
example (w : World) : ∃ ab bc r, Yields PorterDuff.over w (obj .rgbDeep 1 0 0 (fin 0.5) none) (obj .rgbDeep 0 1 0 (fin 0.5) none) ab ∧
    Yields PorterDuff.over w (obj .rgbDeep 0 1 0 (fin 0.5) none) (obj .rgbDeep 0 0 1 (fin 0.5) none) bc ∧
    Yields PorterDuff.over w ab (obj .rgbDeep 0 0 1 (fin 0.5) none) r ∧ Yields PorterDuff.over w (obj .rgbDeep 1 0 0 (fin 0.5) none) bc r :=
  C54_associative w _ _ _ 1 0 0 0.5 0 1 0 0.5 0 0 1 0.5 (isPixel_obj none (by norm_num) (by norm_num) (by norm_num) (by norm_num))
    (isPixel_obj none (by norm_num) (by norm_num) (by norm_num) (by norm_num)) (isPixel_obj none (by norm_num) (by norm_num) (by norm_num) (by norm_num)) rfl rfl

/-! ## C55: valid results -/

/-- C55 for RGB_DEEP colours: alpha and components of the result lie in 0..1. -/
theorem C55_valid (op : PdOp) (w : World) (s d : Color) (s0 s1 s2 sa d0 d1 d2 da : ℝ) (hs : IsPixel s s0 s1 s2 sa) (hd : IsPixel d d0 d1 d2 da)
    (hsp : s.space = d.space) : ∃ r a, Yields op.run w s d r ∧ UnitComps r ∧ r.alpha = fin a ∧ 0 ≤ a ∧ a ≤ 1 := by
  obtain ⟨r, r0, r1, r2, hy, hp, -⟩ := C51_table op w s d s0 s1 s2 sa d0 d1 d2 da hs hd hsp
  refine ⟨r, _, hy, ?_, ?_, hp.a0, hp.a1⟩
  · intro x hx
    rw [hp.rgb.comps] at hx
    simp only [List.mem_cons, List.not_mem_nil, or_false] at hx
    rcases hx with rfl | rfl | rfl
    · exact inRange_fin.mpr ⟨hp.rgb.r0, hp.rgb.r1⟩
    · exact inRange_fin.mpr ⟨hp.rgb.g0, hp.rgb.g1⟩
    · exact inRange_fin.mpr ⟨hp.rgb.b0, hp.rgb.b1⟩
  · rw [hp.eq, obj_alpha _ _ _ _ _ _ rfl]

end

/-! ### C55 with rounding -/

namespace Blend
variable [IntExact]

theorem rnd_one : rnd 1 = fin 1 := by have := IntExact.rnd_int 1 (by norm_num); simpa using this

theorem rnd_range {n : ℕ} (hn : n ≤ 4) {x : ℝ} (h0 : 0 ≤ x) (h1 : x ≤ n) : InRange 0 n (rnd x) := by
  have a := FloatModel.rnd_mono 0 x h0
  have b := FloatModel.rnd_mono x n h1
  have e : rnd (n : ℝ) = fin n := by
    have := IntExact.rnd_int n (by
      have : ((n : ℤ)) ≤ 4 := by exact_mod_cast hn
      rw [abs_of_nonneg (by positivity)]
      norm_num
      omega)
    simpa using this
  rw [FloatModel.rnd_zero] at a
  rw [e] at b
  exact inRange_iff.mpr ⟨a, b⟩

theorem mul_range {x y : Fl} (hx : InRange 0 1 x) (hy : InRange 0 1 y) : InRange 0 1 (x * y) := by
  obtain ⟨a, rfl, a0, a1⟩ := hx
  obtain ⟨b, rfl, b0, b1⟩ := hy
  rw [fin_mul]
  simpa using rnd_range (n := 1) (by norm_num) (mul_nonneg a0 b0) (by simpa using mul_le_one₀ a1 b0 b1)

theorem one_sub_range {x : Fl} (hx : InRange 0 1 x) : InRange 0 1 (1 - x) := by
  obtain ⟨a, rfl, a0, a1⟩ := hx
  rw [one_def, fin_sub]
  simpa using rnd_range (n := 1) (by norm_num) (sub_nonneg.mpr a1) (by simpa using a0)

theorem add_range {n m : ℕ} (h : n + m ≤ 4) {x y : Fl} (hx : InRange 0 n x) (hy : InRange 0 m y) : InRange 0 (n + m : ℕ) (x + y) := by
  obtain ⟨a, rfl, a0, a1⟩ := hx
  obtain ⟨b, rfl, b0, b1⟩ := hy
  rw [fin_add]
  exact rnd_range h (add_nonneg a0 b0) (by push_cast; exact add_le_add a1 b1)

omit [IntExact] in
theorem mul_le {x y z : Fl} (hx : InRange 0 1 x) (hy : InRange 0 1 y) (hz : InRange 0 1 z) (h : y ≤ z) : x * y ≤ x * z := by
  obtain ⟨a, rfl, a0, a1⟩ := hx
  obtain ⟨b, rfl, b0, b1⟩ := hy
  obtain ⟨c, rfl, c0, c1⟩ := hz
  rw [fin_mul, fin_mul]
  exact FloatModel.rnd_mono _ _ (mul_le_mul_of_nonneg_left h a0)

omit [IntExact] in
theorem add_le {n m : ℝ} {x y x' y' : Fl} (hx : InRange 0 n x) (hy : InRange 0 m y) (hx' : InRange 0 n x') (hy' : InRange 0 m y') (h : x ≤ x') (h' : y ≤ y') :
    x + y ≤ x' + y' := by
  obtain ⟨a, rfl, -⟩ := hx
  obtain ⟨b, rfl, -⟩ := hy
  obtain ⟨c, rfl, -⟩ := hx'
  obtain ⟨d, rfl, -⟩ := hy'
  rw [fin_add, fin_add]
  exact FloatModel.rnd_mono _ _ (add_le_add h h')

theorem ite_range {b : Bool} {x : Fl} (hx : InRange 0 1 x) : InRange 0 1 (if b then x else 0) ∧ (if b then x else 0) ≤ (if b then (1 : Fl) else 0) ∧
    InRange 0 1 (if b then (1 : Fl) else 0) := by
  obtain ⟨a, rfl, a0, a1⟩ := hx
  cases b <;> simp [a0, a1]

/-- The premultiplied component never exceeds the resulting alpha. -/
theorem premult_le {A D B s d v : Fl} (hA : InRange 0 1 A) (hD : InRange 0 1 D) (hB : InRange 0 1 B) (hs : InRange 0 1 s) (hd : InRange 0 1 d)
    (us ud ub : Bool) (hv : InRange 0 1 v) (hvb : v ≤ (if ub then (1 : Fl) else 0)) :
    ∃ p α : ℝ, A * (if us then s else 0) + D * (if ud then d else 0) + B * v = fin p ∧
      A * (if us then 1 else 0) + D * (if ud then 1 else 0) + B * (if ub then 1 else 0) = fin α ∧ 0 ≤ p ∧ p ≤ α ∧ α ≤ 3 := by
  obtain ⟨i1, i2, i3⟩ := ite_range (b := us) hs
  obtain ⟨j1, j2, j3⟩ := ite_range (b := ud) hd
  have k3 := (ite_range (b := ub) hs).2.2
  have r1 : InRange 0 (1 : ℕ) (A * (if us then s else 0)) := by simpa using mul_range hA i1
  have r1' : InRange 0 (1 : ℕ) (A * (if us then 1 else 0)) := by simpa using mul_range hA i3
  have r2 : InRange 0 (1 : ℕ) (D * (if ud then d else 0)) := by simpa using mul_range hD j1
  have r2' : InRange 0 (1 : ℕ) (D * (if ud then 1 else 0)) := by simpa using mul_range hD j3
  have r3 : InRange 0 (1 : ℕ) (B * v) := by simpa using mul_range hB hv
  have r3' : InRange 0 (1 : ℕ) (B * (if ub then 1 else 0)) := by simpa using mul_range hB k3
  have m1 := add_le r1 r2 r1' r2' (mul_le hA i1 i3 i2) (mul_le hD j1 j3 j2)
  have q1 := add_range (by norm_num) r1 r2
  have q1' := add_range (by norm_num) r1' r2'
  have m2 := add_le q1 r3 q1' r3' m1 (mul_le hB hv k3 hvb)
  obtain ⟨p, ep, p0, -⟩ := add_range (by norm_num) q1 r3
  obtain ⟨α, ea, a0, a1⟩ := add_range (by norm_num) q1' r3'
  refine ⟨p, α, ep, ea, p0, ?_, by norm_num at a1; exact a1⟩
  rw [ep, ea] at m2
  exact m2

theorem quot_range {p α : ℝ} (p0 : 0 ≤ p) (h : p ≤ α) (ha : α ≠ 0) : InRange 0 1 (Color.clamp (fin p) 1 0 / fin α) := by
  have hpos : 0 < α := lt_of_le_of_ne (p0.trans h) (Ne.symm ha)
  have e : Color.clamp (fin p) 1 0 = fin (min p 1) := by
    simp [Color.clamp, p0]
  rw [e, fin_div _ _ ha]
  have h0 : 0 ≤ min p 1 := le_min p0 zero_le_one
  simpa using rnd_range (n := 1) (by norm_num) (div_nonneg h0 hpos.le) (by simpa using (div_le_one hpos).mpr ((min_le_left _ _).trans h))

theorem vOf_range (op : PdOp) {s d : Fl} (hs : InRange 0 1 s) (hd : InRange 0 1 d) : InRange 0 1 (fOf op s d) ∧ fOf op s d ≤ (if ubOf op then (1 : Fl) else 0) := by
  have h1 : s ≤ 1 := by rw [one_def]; exact (inRange_iff.mp hs).2
  have h2 : d ≤ 1 := by rw [one_def]; exact (inRange_iff.mp hd).2
  cases op <;> simp only [fOf, ubOf, if_true, Bool.false_eq_true, if_false] <;> first | exact ⟨hs, h1⟩ | exact ⟨hd, h2⟩ | simp

end Blend

/-- C55 with rounding: for every arithmetic with monotone rounding that keeps small integers, the result of every operator on RGB_DEEP objects with components
and alpha in 0..1 has components in 0..1 and a finite alpha that is not negative. -/
theorem C55_rounding [IntExact] (op : PdOp) (w : World) (s d : Color) (hs : IsColor .rgbDeep s) (hd : IsColor .rgbDeep d) (us : UnitComps s) (ud : UnitComps d)
    (as : InRange 0 1 s.alpha) (ad : InRange 0 1 d.alpha) (hsp : s.space = d.space) :
    ∃ r, Yields op.run w s d r ∧ UnitComps r ∧ InRange 0 3 r.alpha := by
  obtain ⟨s0, s1, s2, es⟩ := Blend.rgb_form hs
  obtain ⟨d0, d1, d2, ed⟩ := Blend.rgb_form hd
  have as' : InRange 0 1 s.malpha := by rw [es] at as; exact as
  have ad' : InRange 0 1 d.malpha := by rw [ed] at ad; exact ad
  have cs : InRange 0 1 s0 ∧ InRange 0 1 s1 ∧ InRange 0 1 s2 := by
    rw [es] at us
    exact ⟨us s0 (by simp), us s1 (by simp), us s2 (by simp)⟩
  have cd : InRange 0 1 d0 ∧ InRange 0 1 d1 ∧ InRange 0 1 d2 := by
    rw [ed] at ud
    exact ⟨ud d0 (by simp), ud d1 (by simp), ud d2 (by simp)⟩
  obtain ⟨r, g1, -, -⟩ := Blend.gpd_color hs hd (Blend.usOf op) (Blend.udOf op) (Blend.ubOf op) (fun _ s d => Blend.fOf op s d)
  have hy : Yields op.run w s d r := by
    rw [Blend.run_eq]
    exact Blend.operator_rgb (f := fun _ _ _ s d => Blend.fOf op s d) hs hd hsp g1
  refine ⟨r, hy, ?_⟩
  generalize s.malpha = sa at es as'
  generalize d.malpha = da at ed ad'
  rw [es, ed, Blend.gpd_result] at g1
  obtain rfl := ok_inj.mp g1
  have hA := Blend.mul_range as' (Blend.one_sub_range ad')
  have hD := Blend.mul_range ad' (Blend.one_sub_range as')
  have hB := Blend.mul_range as' ad'
  have key : ∀ x y : Fl, InRange 0 1 x → InRange 0 1 y → _ := fun x y hx hy =>
    Blend.premult_le hA hD hB hx hy (Blend.usOf op) (Blend.udOf op) (Blend.ubOf op) (Blend.vOf_range op hx hy).1 (Blend.vOf_range op hx hy).2
  obtain ⟨p0, α, e0, ea, a0, b0, c0⟩ := key s0 d0 cs.1 cd.1
  obtain ⟨p1, α', e1, ea', a1, b1, -⟩ := key s1 d1 cs.2.1 cd.2.1
  obtain ⟨p2, α'', e2, ea'', a2, b2, -⟩ := key s2 d2 cs.2.2 cd.2.2
  have h1 : α' = α := by rw [ea] at ea'; exact (fin_inj.mp ea').symm
  have h2 : α'' = α := by rw [ea] at ea''; exact (fin_inj.mp ea'').symm
  rw [h1] at b1
  rw [h2] at b2
  unfold Blend.result
  simp only [e0, e1, e2, ea]
  unfold Color.alphaDivide
  by_cases hz : α = 0
  · simp only [hz, zero_def, feq_fin, if_true]
    have z : ∀ p : ℝ, 0 ≤ p → p ≤ α → InRange 0 1 (Color.clamp (fin p) 1 (fin 0)) := by
      intro p h h'
      have : p = 0 := le_antisymm (hz ▸ h') h
      simp [Color.clamp, this]
    refine ⟨?_, by simp [Color.alpha, Color.scalesAlpha]⟩
    intro x hx
    simp only [List.mem_cons, List.not_mem_nil, or_false] at hx
    rcases hx with rfl | rfl | rfl
    · exact z p0 a0 b0
    · exact z p1 a1 b1
    · exact z p2 a2 b2
  · rw [if_neg (by simpa using hz)]
    refine ⟨?_, by simp [Color.alpha, Color.scalesAlpha]; exact ⟨a0.trans b0, c0⟩⟩
    intro x hx
    simp only [List.map_cons, List.map_nil, List.mem_cons, List.not_mem_nil, or_false] at hx
    rcases hx with rfl | rfl | rfl
    · exact Blend.quot_range a0 b0 hz
    · exact Blend.quot_range a1 b1 hz
    · exact Blend.quot_range a2 b2 hz

/-- C55 for the other types: converting the result back limits the components to the range of the type of the source.  Any rounding. -/
theorem C55_any_type (op : PdOp) (w : World) (ts td : ColorType) (hts : ts ≠ .undefined ∧ ts ≠ .lchAb ∧ ts ≠ .lchUv ∧ ts ≠ .rgbDeep) (htd : td ≠ .undefined)
    (s d : Color) (hs : IsColor ts s) (hd : IsColor td d) (hsp : s.space = d.space) (hw : Cie ts ∨ Cie td → w.Usable s.space) :
    ∃ r, Yields op.run w s d r ∧ IsColor ts r ∧ ComponentsInRange r := by
  obtain ⟨s', d', r, r', v1, v2, hy, v3, hy', hc, -⟩ := C51_any_type_total op w ts td ⟨hts.1, hts.2.1, hts.2.2.1⟩ htd s d hs hd hsp hw
  refine ⟨r', hy', hc, ?_⟩
  have hr : IsColor .rgbDeep r := by
    obtain ⟨q, h', e1, e2⟩ := v3 ⟨w, [r]⟩ 0 rfl rfl
    have c1 := (converts_iff hts.1 (by simp) hs).mp v1
    have c2 := (converts_iff htd (by simp) hd).mp v2
    obtain ⟨_, _, -, k1⟩ := call_to (h := ⟨w, [s]⟩) (i := 0) hts.1 (by simp) hs rfl c1
    obtain ⟨_, _, -, k2⟩ := call_to (h := ⟨w, [d]⟩) (i := 0) htd (by simp) hd rfl c2
    obtain ⟨r₂, g1, g2, -⟩ := Blend.gpd_color k1.col k2.col (Blend.usOf op) (Blend.udOf op) (Blend.ubOf op) (fun _ s d => Blend.fOf op s d)
    rw [Blend.run_eq] at hy
    have := Yields.unique (Blend.operator_rgb (f := fun _ _ _ s d => Blend.fOf op s d) (w := w) k1.col k2.col (by rw [k1.space, k2.space, hsp]) g1) hy
    exact this ▸ g2
  have := (converts_iff (by simp) hts.1 hr).mp v3
  rw [Val.to, if_neg (Ne.symm hts.2.2.2)] at this
  exact ((Conv.good_direct _ _ (by simp) hts.1 (Ne.symm hts.2.2.2)).result _ _ _ this).rng

/-- Case: an XYZ source in a preset space and an 8-bit destination. -/
example [StdSort] [ExactModel] : ∃ (w : World) (s d r : Color), Color.construct .xyz [50, 50, 50] 1 (some 0) = ok s ∧ Color.construct .rgbTrue [255, 0, 0] 255 (some 0) = ok d ∧
    Yields PorterDuff.over w s d r ∧ ComponentsInRange r := by
  obtain ⟨s, hs⟩ := Conv.construct_total .xyz (vs := [50, 50, 50]) 1 (some 0) rfl
  obtain ⟨d, hd⟩ := Conv.construct_total .rgbTrue (vs := [255, 0, 0]) 255 (some 0) rfl
  have cs := (Conv.construct_result (by simp) (by rfl) hs)
  have cd := (Conv.construct_result (by simp) (by rfl) hd)
  obtain ⟨w, hw, -⟩ := exists_world .sRGB .sRGB
  obtain ⟨r, h1, -, h2⟩ := C55_any_type .over w .xyz .rgbTrue (by simp) (by simp) s d cs.col cd.col (by rw [cs.space, cd.space]) (fun _ => by rw [cs.space]; exact hw)
  exact ⟨w, s, d, r, hs, hd, h1, h2⟩

/-- Case: black and white, opaque. -/
example (w : World) [IntExact] : ∃ r, Yields PorterDuff.atop w ⟨.rgbDeep, .rgbDeep, [0, 0, 0], 1, 1, 0, none⟩ ⟨.rgbDeep, .rgbDeep, [1, 1, 1], 1, 1, 0, none⟩ r ∧
    UnitComps r ∧ InRange 0 3 r.alpha :=
  C55_rounding .atop w _ _ ⟨rfl, rfl, rfl, rfl, rfl⟩ ⟨rfl, rfl, rfl, rfl, rfl⟩ (by simp [UnitComps]) (by simp [UnitComps]) (by simp [Color.alpha, Color.scalesAlpha])
    (by simp [Color.alpha, Color.scalesAlpha]) rfl

end
