import Verif.Calls

/-! Helper lemmas about compositing and blending, and the vocabulary in which their properties are stated. -/

open Outcome Fl Prog ObjectSpec ConvSpec Hue

namespace BlendSpec

/-- Called with pointers to `s` and `d`, wherever these are stored, `p` returns a pointer to a new object, which is `r`, and changes no existing object. -/
def Yields (p : Ptr → Ptr → Prog Ptr) (w : World) (s d r : Color) : Prop :=
  ∀ (h : Heap) (i j : Nat), h.world = w → h.colors[i]? = some s → h.colors[j]? = some d →
    ∃ q h', p (some i) (some j) h = (ok (some q), h') ∧ h'.colors[q]? = some r ∧ h.colors.length ≤ q ∧ Frame h h'

/-- Converting `c` to type `t` gives `c'`, wherever `c` is stored. -/
def Converts [FloatModel] (w : World) (c : Color) (t : ColorType) (c' : Color) : Prop :=
  ∀ (h : Heap) (i : Nat), h.world = w → h.colors[i]? = some c → ∃ q h', Conv.dispatcher t (some i) h = (ok (some q), h') ∧ h'.colors[q]? = some c'

/-- An RGB_DEEP colour with channels `r`, `g`, `b` and alpha `a`, all between 0 and 1. -/
structure IsPixel (c : Color) (r g b a : ℝ) : Prop where
  rgb : IsRgb c r g b
  alpha : c.malpha = fin a
  a0 : 0 ≤ a
  a1 : a ≤ 1

end BlendSpec

open BlendSpec

theorem BlendSpec.Yields.unique {p : Ptr → Ptr → Prog Ptr} {w : World} {s d r r' : Color} (h : Yields p w s d r) (h' : Yields p w s d r') : r = r' := by
  obtain ⟨q, g, e1, e2, -, -⟩ := h ⟨w, [s, d]⟩ 0 1 rfl rfl rfl
  obtain ⟨q', g', e1', e2', -, -⟩ := h' ⟨w, [s, d]⟩ 0 1 rfl rfl rfl
  rw [e1] at e1'
  simp only [Prod.mk.injEq, ok_inj, Option.some.injEq] at e1'
  obtain ⟨rfl, rfl⟩ := e1'
  rw [e2] at e2'
  exact Option.some.inj e2'

section
variable [FloatModel]

theorem BlendSpec.converts_iff {s t : ColorType} (hs : s ≠ .undefined) (ht : t ≠ .undefined) {w : World} {c c' : Color} (hc : IsColor s c) :
    Converts w c t c' ↔ Val.to s t w c = ok c' := by
  constructor
  · intro h
    obtain ⟨q, h', e1, e2⟩ := h ⟨w, [c]⟩ 0 rfl rfl
    by_cases hst : s = t
    · subst hst
      rw [Conv.dispatcher_same s hs _ 0 c rfl hc.cls hc.ctype] at e1
      simp only [Prod.mk.injEq, ok_inj, Option.some.injEq] at e1
      obtain ⟨rfl, rfl⟩ := e1
      simp only [List.getElem?_cons_zero, Option.some.injEq] at e2
      simp [Val.to, e2]
    · obtain ⟨k, c'', a1, a2, -, -, -, -, a3⟩ := convert_result s t hs ht ⟨w, [c]⟩ 0 c rfl hc _ _ e1 hst
      have : q = k := by simpa using a1
      subst this
      rw [e2] at a2
      rw [Val.to, if_neg hst, Option.some.inj a2]
      exact a3
  · intro h g i hw hi
    subst hw
    obtain ⟨q, h', e1, e2⟩ := call_to hs ht hc hi h
    exact ⟨q, h', e1, e2.here⟩

namespace Blend

/-- The general reduction: convert both colours, combine, convert back. -/
theorem operator_yields {us ud ub : Bool} {f : Color → Color → Nat → Fl → Fl → Fl} {ts td : ColorType} (hts : ts ≠ .undefined) (h1 : ts ≠ .lchAb) (h2 : ts ≠ .lchUv)
    (htd : td ≠ .undefined) {w : World} {s d s' d' r r' : Color} (hs : IsColor ts s) (hd : IsColor td d) (hsp : s.space = d.space)
    (vs : Val.to ts .rgbDeep w s = ok s') (vd : Val.to td .rgbDeep w d = ok d') (hg : gpdVal s' d' us ud ub (f s d) = ok r) (hr : IsColor .rgbDeep r)
    (vr : Val.to .rgbDeep ts w r = ok r') : Yields (operator us ud ub f) w s d r' := by
  intro h i j hw hi hj
  subst hw
  obtain ⟨q1, g1, e1, c1⟩ := call_to hts (by simp) hs hi vs
  have f1 := c1.frame (by rintro ⟨-, hc⟩; simp [Cie] at hc)
  obtain ⟨q2, g2, e2, c2⟩ := call_to (t := .rgbDeep) htd (by simp) hd (f1.2 _ _ hj) (c1.world ▸ vd)
  have f2 := c2.frame (by rintro ⟨-, hc⟩; simp [Cie] at hc)
  have l1 := f2.2 _ _ c1.here
  set g3 : Heap := ⟨g2.world, g2.colors ++ [r]⟩ with hg3
  have hr3 : g3.colors[g2.colors.length]? = some r := by simp [hg3]
  have hw3 : g3.world = h.world := c2.world.trans c1.world
  have hv3 : Val.to .rgbDeep ts g3.world r = ok r' := by rw [hw3]; exact vr
  obtain ⟨q4, g4, e4, c4⟩ := call_to (t := ts) (by simp) hts hr hr3 hv3
  have hspq : s'.space = d'.space := by rw [c1.space, c2.space, hsp]
  have f3 : Frame g2 g3 := Frame.alloc g2 r
  have hgpd : generalPorterDuff (some q1) (some q2) us ud ub (f s d) g2 = (ok (some g2.colors.length), g3) := by
    simp only [generalPorterDuff, reduceCtorEq, if_false, Prog.bind_def, load, l1, c2.here]
    rw [if_neg (by simp [hspq])]
    simp only [Prog.bind_def, lift, hg, Prog.alloc]
    rw [hg3]
  refine ⟨q4, g4, ?_, c4.here, ?_, ?_⟩
  · simp only [operator, reduceCtorEq, if_false, Prog.bind_def, load, hi, hj]
    rw [if_neg (by simp [hsp])]
    simp only [Prog.bind_def]
    have e1' : Converter.to_rgb_deep (some i) h = (ok (some q1), g1) := e1
    have e2' : Converter.to_rgb_deep (some j) g1 = (ok (some q2), g2) := e2
    simp only [e1', e2', hgpd, hs.ctype]
    rw [convertTo_dispatcher h1 h2 hts, e4]
  · have : h.colors.length ≤ g2.colors.length := c1.grows.trans c2.grows
    have h3 : g2.colors.length ≤ g3.colors.length := by simp [hg3]
    rcases c4.fresh with ⟨a, -⟩ | ⟨a, -⟩
    · rw [a]; exact this
    · exact this.trans (h3.trans a)
  · refine ⟨c4.world.trans hw3, fun k c hk => ?_⟩
    have hk2 := (f1.trans f2).2 _ _ hk
    refine c4.others k c ?_ (f3.2 _ _ hk2)
    have := (List.getElem?_eq_some_iff.mp hk2).1
    omega

/-- An LCH source: `convertTo` returns null at the end. -/
theorem operator_lch {us ud ub : Bool} {f : Color → Color → Nat → Fl → Fl → Fl} {ts td : ColorType} (hts : ts = .lchAb ∨ ts = .lchUv)
    (htd : td ≠ .undefined) {w : World} {s d s' d' r : Color} (hs : IsColor ts s) (hd : IsColor td d) (hsp : s.space = d.space)
    (vs : Val.to ts .rgbDeep w s = ok s') (vd : Val.to td .rgbDeep w d = ok d') (hg : gpdVal s' d' us ud ub (f s d) = ok r)
    (h : Heap) (i j : Nat) (hw : h.world = w) (hi : h.colors[i]? = some s) (hj : h.colors[j]? = some d) :
    ∃ h', operator us ud ub f (some i) (some j) h = (ok none, h') ∧ Frame h h' := by
  subst hw
  obtain ⟨q1, g1, e1, c1⟩ := call_to (t := .rgbDeep) (by rcases hts with rfl | rfl <;> simp) (by simp) hs hi vs
  have f1 := c1.frame (by rintro ⟨-, hc⟩; simp [Cie] at hc)
  obtain ⟨q2, g2, e2, c2⟩ := call_to (t := .rgbDeep) htd (by simp) hd (f1.2 _ _ hj) (c1.world ▸ vd)
  have f2 := c2.frame (by rintro ⟨-, hc⟩; simp [Cie] at hc)
  have l1 := f2.2 _ _ c1.here
  have hspq : s'.space = d'.space := by rw [c1.space, c2.space, hsp]
  have hgpd : generalPorterDuff (some q1) (some q2) us ud ub (f s d) g2 = (ok (some g2.colors.length), ⟨g2.world, g2.colors ++ [r]⟩) := by
    simp only [generalPorterDuff, reduceCtorEq, if_false, Prog.bind_def, load, l1, c2.here]
    rw [if_neg (by simp [hspq])]
    simp only [Prog.bind_def, lift, hg, Prog.alloc]
  refine ⟨⟨g2.world, g2.colors ++ [r]⟩, ?_, f1.trans (f2.trans (Frame.alloc g2 r))⟩
  simp only [operator, reduceCtorEq, if_false, Prog.bind_def, load, hi, hj]
  rw [if_neg (by simp [hsp])]
  simp only [Prog.bind_def]
  have e1' : Converter.to_rgb_deep (some i) h = (ok (some q1), g1) := e1
  have e2' : Converter.to_rgb_deep (some j) g1 = (ok (some q2), g2) := e2
  simp only [e1', e2', hgpd, hs.ctype]
  rcases hts with rfl | rfl <;> rfl

/-- The result of `general_porter_duff` on two RGB_DEEP objects, any rounding. -/
noncomputable def result (s0 s1 s2 sa d0 d1 d2 da : Fl) (us ud ub : Bool) (f : Nat → Fl → Fl → Fl) (sp : Option Nat) : Color :=
  Color.alphaDivide ⟨.rgbDeep, .rgbDeep,
    [Color.clamp (sa * (1 - da) * (if us then s0 else 0) + da * (1 - sa) * (if ud then d0 else 0) + sa * da * f 0 s0 d0) 1 0,
     Color.clamp (sa * (1 - da) * (if us then s1 else 0) + da * (1 - sa) * (if ud then d1 else 0) + sa * da * f 1 s1 d1) 1 0,
     Color.clamp (sa * (1 - da) * (if us then s2 else 0) + da * (1 - sa) * (if ud then d2 else 0) + sa * da * f 2 s2 d2) 1 0],
    sa * (1 - da) * (if us then 1 else 0) + da * (1 - sa) * (if ud then 1 else 0) + sa * da * (if ub then 1 else 0), 1, 0, sp⟩

theorem gpd_result (s0 s1 s2 sa d0 d1 d2 da : Fl) (us ud ub : Bool) (f : Nat → Fl → Fl → Fl) (sp sq : Option Nat) :
    gpdVal ⟨.rgbDeep, .rgbDeep, [s0, s1, s2], sa, 1, 0, sp⟩ ⟨.rgbDeep, .rgbDeep, [d0, d1, d2], da, 1, 0, sq⟩ us ud ub f =
      ok (result s0 s1 s2 sa d0 d1 d2 da us ud ub f sp) := by
  rfl

theorem result_color (s0 s1 s2 sa d0 d1 d2 da : Fl) (us ud ub : Bool) (f : Nat → Fl → Fl → Fl) (sp : Option Nat) :
    IsColor .rgbDeep (result s0 s1 s2 sa d0 d1 d2 da us ud ub f sp) ∧ (result s0 s1 s2 sa d0 d1 d2 da us ud ub f sp).space = sp := by
  have key : ∀ c : Color, IsColor .rgbDeep c → IsColor .rgbDeep c.alphaDivide ∧ c.alphaDivide.space = c.space := by
    intro c hc
    unfold Color.alphaDivide
    split
    · exact ⟨hc, rfl⟩
    · exact ⟨⟨hc.cls, hc.ctype, by simpa using hc.len, hc.maxv, hc.minv⟩, rfl⟩
  exact key _ ⟨rfl, rfl, rfl, rfl, rfl⟩

theorem rgb_form {c : Color} (h : IsColor .rgbDeep c) : ∃ x y z, c = ⟨.rgbDeep, .rgbDeep, [x, y, z], c.malpha, 1, 0, c.space⟩ := by
  obtain ⟨x, y, z, e⟩ := Conv.isColor_three (by rfl) h
  exact ⟨x, y, z, e⟩

theorem gpd_color {s d : Color} (hs : IsColor .rgbDeep s) (hd : IsColor .rgbDeep d) (us ud ub : Bool) (f : Nat → Fl → Fl → Fl) :
    ∃ r, gpdVal s d us ud ub f = ok r ∧ IsColor .rgbDeep r ∧ r.space = s.space := by
  obtain ⟨s0, s1, s2, es⟩ := rgb_form hs
  obtain ⟨d0, d1, d2, ed⟩ := rgb_form hd
  rw [es, ed, gpd_result]
  exact ⟨_, rfl, result_color ..⟩

/-- RGB_DEEP objects: no conversion. -/
theorem operator_rgb {us ud ub : Bool} {f : Color → Color → Nat → Fl → Fl → Fl} {w : World} {s d r : Color} (hs : IsColor .rgbDeep s) (hd : IsColor .rgbDeep d)
    (hsp : s.space = d.space) (hg : gpdVal s d us ud ub (f s d) = ok r) : Yields (operator us ud ub f) w s d r := by
  obtain ⟨r', h1, h2, -⟩ := gpd_color hs hd us ud ub (f s d)
  rw [hg] at h1
  obtain rfl := ok_inj.mp h1
  exact operator_yields (by simp) (by simp) (by simp) (by simp) hs hd hsp (by simp [Val.to]) (by simp [Val.to]) hg h2 (by simp [Val.to])

/-- Any types: combining converts to RGB_DEEP, combines there and converts back. -/
theorem operator_any {us ud ub : Bool} {f : Nat → Fl → Fl → Fl} {ts td : ColorType} (hts : ts ≠ .undefined) (h1 : ts ≠ .lchAb) (h2 : ts ≠ .lchUv)
    (htd : td ≠ .undefined) {w : World} {s d s' d' r r' : Color} (hs : IsColor ts s) (hd : IsColor td d) (hsp : s.space = d.space)
    (vs : Converts w s .rgbDeep s') (vd : Converts w d .rgbDeep d') (hy : Yields (operator us ud ub fun _ _ => f) w s' d' r)
    (vr : Converts w r ts r') : Yields (operator us ud ub fun _ _ => f) w s d r' := by
  rw [converts_iff hts (by simp) hs] at vs
  rw [converts_iff htd (by simp) hd] at vd
  have cs : IsColor .rgbDeep s' ∧ s'.space = s.space := by
    obtain ⟨q, h', -, e⟩ := call_to (h := ⟨w, [s]⟩) (i := 0) hts (by simp) hs rfl vs
    exact ⟨e.col, e.space⟩
  have cd : IsColor .rgbDeep d' ∧ d'.space = d.space := by
    obtain ⟨q, h', -, e⟩ := call_to (h := ⟨w, [d]⟩) (i := 0) htd (by simp) hd rfl vd
    exact ⟨e.col, e.space⟩
  obtain ⟨r₂, g1, g2, -⟩ := gpd_color cs.1 cd.1 us ud ub f
  have : r₂ = r := Yields.unique (operator_rgb (f := fun _ _ => f) (w := w) cs.1 cd.1 (by rw [cs.2, cd.2, hsp]) g1) hy
  subst this
  rw [converts_iff (by simp) hts g2] at vr
  exact operator_yields hts h1 h2 htd hs hd hsp vs vd g1 g2 vr

end Blend

/-! ### Exact arithmetic -/

namespace Blend
variable [ExactModel]

/-- The area factors of the two colours. -/
def weight (b : Bool) : ℝ := if b then 1 else 0

/-- Limiting to 0..1. -/
noncomputable def unit (x : ℝ) : ℝ := max (min x 1) 0

omit [FloatModel] [ExactModel] in
theorem unit_of {x : ℝ} (h0 : 0 ≤ x) (h1 : x ≤ 1) : unit x = x := by simp [unit, h0, h1]

omit [FloatModel] [ExactModel] in
theorem unit_range (x : ℝ) : 0 ≤ unit x ∧ unit x ≤ 1 := ⟨le_max_right _ _, max_le (min_le_right _ _) zero_le_one⟩

/-- Resulting alpha. -/
noncomputable def alphaOf (us ud ub : Bool) (sa da : ℝ) : ℝ := sa * (1 - da) * weight us + da * (1 - sa) * weight ud + sa * da * weight ub

/-- Resulting premultiplied component before it is limited; `v` is the value of the both region. -/
noncomputable def comb (us ud : Bool) (sa da s d v : ℝ) : ℝ := sa * (1 - da) * (weight us * s) + da * (1 - sa) * (weight ud * d) + sa * da * v

open Classical in
/-- Division by the resulting alpha. -/
noncomputable def quot (α x : ℝ) : ℝ := if α = 0 then x else x / α

theorem gpd_exact {s d : Color} {s0 s1 s2 sa d0 d1 d2 da v0 v1 v2 : ℝ} (hs : IsColor .rgbDeep s) (cs : s.comps = [fin s0, fin s1, fin s2]) (as : s.malpha = fin sa)
    (hd : IsColor .rgbDeep d) (cd : d.comps = [fin d0, fin d1, fin d2]) (ad : d.malpha = fin da)
    (us ud ub : Bool) (f : Nat → Fl → Fl → Fl) (h0 : f 0 (fin s0) (fin d0) = fin v0) (h1 : f 1 (fin s1) (fin d1) = fin v1) (h2 : f 2 (fin s2) (fin d2) = fin v2) :
    gpdVal s d us ud ub f = ok (obj .rgbDeep (quot (alphaOf us ud ub sa da) (unit (comb us ud sa da s0 d0 v0)))
      (quot (alphaOf us ud ub sa da) (unit (comb us ud sa da s1 d1 v1))) (quot (alphaOf us ud ub sa da) (unit (comb us ud sa da s2 d2 v2)))
      (fin (alphaOf us ud ub sa da)) s.space) := by
  obtain ⟨x, y, z, es⟩ := rgb_form hs
  obtain ⟨x', y', z', ed⟩ := rgb_form hd
  rw [es] at cs
  rw [ed] at cd
  simp only [List.cons.injEq, and_true] at cs cd
  obtain ⟨rfl, rfl, rfl⟩ := cs
  obtain ⟨rfl, rfl, rfl⟩ := cd
  rw [as] at es
  rw [ad] at ed
  generalize s.space = sp at *
  subst es
  rw [ed, gpd_result]
  have ite1 : ∀ (b : Bool) (x : ℝ), (if b = true then fin x else (0 : Fl)) = fin (weight b * x) := by
    intro b x; cases b <;> simp [weight]
  have ite2 : ∀ (b : Bool), (if b = true then (1 : Fl) else 0) = fin (weight b) := by
    intro b; cases b <;> simp [weight]
  unfold result
  simp only [ite1, ite2, h0, h1, h2]
  simp only [one_def, zero_def, sub_exact, mul_exact, add_exact, Color.clamp, fmin_fin, fmax_fin]
  have ea : sa * (1 - da) * weight us + da * (1 - sa) * weight ud + sa * da * weight ub = alphaOf us ud ub sa da := rfl
  rw [ea]
  unfold Color.alphaDivide obj
  simp only [zero_def, feq_fin, Color.maxOf, Color.minOf, one_def, ok_inj]
  unfold quot
  by_cases ha : alphaOf us ud ub sa da = 0
  · simp only [ha, if_true]
    rfl
  · simp only [ha, if_false, List.map_cons, List.map_nil, div_exact _ _ ha]
    rfl

end Blend

end
