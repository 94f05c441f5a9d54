import Verif.HueLemmas
import Verif.Props.Convert

/-!
# Lemmas on round trips between RGB and the hue-based spaces, CMYK and grey

Specification of round trips (`Trip`, `Agree`) and the value-level computations.  Exact arithmetic except where stated.
-/

open Outcome Fl Prog ObjectSpec ConvSpec

namespace ConvSpec

/-- Converting `c` to type `t` and the result to type `s` gives `c'`, wherever `c` is stored. -/
def Trip [FloatModel] (w : World) (c : Color) (t s : ColorType) (c' : Color) : Prop :=
  ∀ (h : Heap) (i : Nat), h.world = w → h.colors[i]? = some c → ∃ q h' r h'',
    Conv.dispatcher t (some i) h = (ok (some q), h') ∧ Conv.dispatcher s (some q) h' = (ok (some r), h'') ∧ h''.colors[r]? = some c'

/-- Converting `c` to type `u` directly and by way of type `t` gives the same colour, wherever `c` is stored. -/
def Agree [FloatModel] (w : World) (c : Color) (t u : ColorType) : Prop :=
  ∀ (h : Heap) (i : Nat), h.world = w → h.colors[i]? = some c → ∃ p g q h' r h'' d,
    Conv.dispatcher u (some i) h = (ok (some p), g) ∧ g.colors[p]? = some d ∧
    Conv.dispatcher t (some i) h = (ok (some q), h') ∧ Conv.dispatcher u (some q) h' = (ok (some r), h'') ∧ h''.colors[r]? = some d

/-- `c` is an RGB_DEEP colour with channels `r`, `g`, `b` between 0 and 1. -/
structure IsRgb (c : Color) (r g b : ℝ) : Prop where
  col : IsColor .rgbDeep c
  comps : c.comps = [fin r, fin g, fin b]
  r0 : 0 ≤ r
  r1 : r ≤ 1
  g0 : 0 ≤ g
  g1 : g ≤ 1
  b0 : 0 ≤ b
  b1 : b ≤ 1

/-- Colours whose hue lies strictly between 359 and 360 degrees: slightly bluish reds. -/
def HueGap (r g b : ℝ) : Prop := g < b ∧ 60 * (b - g) < r - g

open Classical in
/-- Blue channel after the hue has been limited to 359 degrees. -/
noncomputable def gapBlue (r g b : ℝ) : ℝ := if HueGap r g b then g + (r - g) / 60 else b

end ConvSpec

section
variable [FloatModel]

theorem trip_of {s t : ColorType} (hs : s ≠ .undefined) (ht : t ≠ .undefined) (hst : s ≠ t) {w : World} {c d c' : Color} (hcol : IsColor s c)
    (h1 : Val.conv s t w c = ok d) (h2 : Val.conv t s w d = ok c') : Trip w c t s c' := by
  intro h i hw hi
  subst hw
  have hd := Conv.dispatcher_spec s t hs ht hst h i c hi hcol
  rw [h1] at hd
  obtain ⟨ext, hd⟩ := hd
  set h' : Heap := ⟨h.world, h.colors.set i (Conv.effect s t h.world c) ++ ext ++ [d]⟩
  have hcd := ((Conv.good_direct s t hs ht hst).result _ _ _ h1).col
  have he := Conv.dispatcher_spec t s ht hs (Ne.symm hst) h' (h.colors.length + ext.length) d (by simp [h', List.getElem?_append_right]) hcd
  simp only [show h'.world = h.world from rfl, h2] at he
  obtain ⟨ext', he⟩ := he
  refine ⟨_, h', _, _, hd, he, ?_⟩
  simp only [List.append_assoc]
  rw [List.getElem?_append_right (by simp), List.getElem?_append_right (by simp)]
  simp

omit [FloatModel] in
theorem length_lookup (l e : List Color) (i : Nat) (x d : Color) : (l.set i x ++ e ++ [d])[l.length + e.length]? = some d := by
  rw [List.append_assoc, List.getElem?_append_right (by simp), List.getElem?_append_right (by simp)]
  simp

/-- The dispatcher stores what the value function computes. -/
theorem dispatcher_val {s t : ColorType} (hs : s ≠ .undefined) (ht : t ≠ .undefined) (hst : s ≠ t) {c d : Color} (hcol : IsColor s c) {h : Heap} {i : Nat}
    (hi : h.colors[i]? = some c) (h1 : Val.conv s t h.world c = ok d) :
    ∃ q h', Conv.dispatcher t (some i) h = (ok (some q), h') ∧ h'.colors[q]? = some d ∧ h'.world = h.world ∧ IsColor t d := by
  have hd := Conv.dispatcher_spec s t hs ht hst h i c hi hcol
  rw [h1] at hd
  obtain ⟨ext, hd⟩ := hd
  exact ⟨_, _, hd, length_lookup _ _ _ _ _, rfl, ((Conv.good_direct s t hs ht hst).result _ _ _ h1).col⟩

theorem agree_of {s t u : ColorType} (hs : s ≠ .undefined) (ht : t ≠ .undefined) (hu : u ≠ .undefined) (hst : s ≠ t) (hsu : s ≠ u) (htu : t ≠ u)
    {w : World} {c d e : Color} (hcol : IsColor s c) (h1 : Val.conv s u w c = ok e) (h2 : Val.conv s t w c = ok d) (h3 : Val.conv t u w d = ok e) :
    Agree w c t u := by
  intro h i hw hi
  subst hw
  obtain ⟨p, g, a1, a2, -, -⟩ := dispatcher_val hs hu hsu hcol hi h1
  obtain ⟨q, h', b1, b2, b3, b4⟩ := dispatcher_val hs ht hst hcol hi h2
  obtain ⟨r, h'', c1, c2, -, -⟩ := dispatcher_val ht hu htu b4 b2 (b3 ▸ h3)
  exact ⟨p, g, q, h', r, h'', e, a1, a2, b1, c1, c2⟩

theorem not_agree_of {s t u : ColorType} (hs : s ≠ .undefined) (ht : t ≠ .undefined) (hu : u ≠ .undefined) (hst : s ≠ t) (hsu : s ≠ u) (htu : t ≠ u)
    {w : World} {c d e e' : Color} (hcol : IsColor s c) (h1 : Val.conv s u w c = ok e) (h2 : Val.conv s t w c = ok d) (h3 : Val.conv t u w d = ok e')
    (hne : e ≠ e') : ¬ Agree w c t u := by
  intro ha
  obtain ⟨p, g, q, h', r, h'', d', a1, a2, b1, c1, c2⟩ := ha ⟨w, [c]⟩ 0 rfl rfl
  obtain ⟨p₂, g₂, a1₂, a2₂, -, -⟩ := dispatcher_val hs hu hsu (h := ⟨w, [c]⟩) (i := 0) hcol rfl h1
  obtain ⟨q₂, h'₂, b1₂, b2₂, b3₂, b4₂⟩ := dispatcher_val hs ht hst (h := ⟨w, [c]⟩) (i := 0) hcol rfl h2
  have h3' : Val.conv t u h'₂.world d = ok e' := by rw [b3₂]; exact h3
  obtain ⟨r₂, h''₂, c1₂, c2₂, -, -⟩ := dispatcher_val ht hu htu b4₂ b2₂ h3'
  rw [b1] at b1₂
  rw [a1] at a1₂
  simp only [Prod.mk.injEq, ok_inj, Option.some.injEq] at a1₂ b1₂
  obtain ⟨rfl, rfl⟩ := a1₂
  obtain ⟨rfl, rfl⟩ := b1₂
  rw [c1] at c1₂
  simp only [Prod.mk.injEq, ok_inj, Option.some.injEq] at c1₂
  obtain ⟨rfl, rfl⟩ := c1₂
  rw [a2] at a2₂
  rw [c2] at c2₂
  simp only [Option.some.injEq] at a2₂ c2₂
  exact hne (a2₂.symm.trans c2₂)

/-- A trip has only one result. -/
theorem ConvSpec.Trip.unique {w : World} {c : Color} {t s : ColorType} {a b : Color} (ha : Trip w c t s a) (hb : Trip w c t s b) : a = b := by
  obtain ⟨q, h', r, h'', a1, a2, a3⟩ := ha ⟨w, [c]⟩ 0 rfl rfl
  obtain ⟨q₂, h'₂, r₂, h''₂, b1, b2, b3⟩ := hb ⟨w, [c]⟩ 0 rfl rfl
  rw [a1] at b1
  simp only [Prod.mk.injEq, ok_inj, Option.some.injEq] at b1
  obtain ⟨rfl, rfl⟩ := b1
  rw [a2] at b2
  simp only [Prod.mk.injEq, ok_inj, Option.some.injEq] at b2
  obtain ⟨rfl, rfl⟩ := b2
  rw [a3] at b3
  exact Option.some.inj b3

theorem ConvSpec.IsRgb.eq {c : Color} {r g b : ℝ} (h : IsRgb c r g b) : c = ⟨.rgbDeep, .rgbDeep, [fin r, fin g, fin b], c.malpha, 1, 0, c.space⟩ := by
  obtain ⟨⟨h1, h2, -, h3, h4⟩, h5, -⟩ := h
  cases c
  simp only [Color.maxOf, Color.minOf] at *
  simp [h1, h2, h3, h4, h5]

end

namespace Hue
variable [FloatModel] [ExactModel]
open Classical

/-- Middle channel after the hue has been limited to 359 degrees. -/
noncomputable def lim (k : Sector) (u : ℝ) : ℝ := if k = .F ∧ u < 1 / 60 then 1 / 60 else u

omit [FloatModel] [ExactModel] in
theorem lim_range (k : Sector) {u : ℝ} (u0 : 0 ≤ u) (u1 : u ≤ 1) : 0 ≤ lim k u ∧ lim k u ≤ 1 := by
  unfold lim; split <;> constructor <;> linarith

omit [FloatModel] [ExactModel] in
theorem clamp_hue {r g b mn δ : ℝ} {k : Sector} {u : ℝ} (h : Pos r g b mn δ k u) : Color.clamp (fin (k.hue u)) 359 0 = fin (k.hue (lim k u)) := by
  have hr := h.hue_range
  have := h.u0; have := h.u1
  simp only [lit_def, zero_def, Color.clamp_fin, fin.injEq]
  unfold lim
  split
  · rename_i hh
    obtain ⟨rfl, hu⟩ := hh
    simp only [Sector.hue] at *
    rw [min_eq_right (by linarith)]; norm_num
  · rename_i hh
    have : k.hue u ≤ 359 := by
      cases k <;> simp only [Sector.hue, true_and, not_lt, reduceCtorEq, false_and, not_false_eq_true] at * <;> linarith
    rw [min_eq_left this, max_eq_left hr.1]

omit [FloatModel] [ExactModel] in
/-- What limiting the hue does to the channels. -/
theorem lim_channels {r g b mn δ : ℝ} {k : Sector} {u : ℝ} (h : Pos r g b mn δ k u) :
    mn + δ * k.red (lim k u) = r ∧ mn + δ * k.green (lim k u) = g ∧ mn + δ * k.blue (lim k u) = gapBlue r g b := by
  have hδ := h.δ0
  have e1 := h.red; have e2 := h.green; have e3 := h.blue
  have u0 := h.u0; have u1 := h.u1
  have hf := h.f
  clear h
  unfold lim gapBlue HueGap
  by_cases hk : k = .F ∧ u < 1 / 60
  · obtain ⟨rfl, hu⟩ := hk
    have := hf rfl
    rw [if_pos ⟨rfl, hu⟩]
    simp only [Sector.red, Sector.green, Sector.blue] at *
    have : δ * u < δ * (1 / 60) := by nlinarith
    have : 0 < δ * u := by positivity
    rw [if_pos (by constructor <;> linarith)]
    refine ⟨?_, ?_, ?_⟩ <;> linarith
  · rw [if_neg hk]
    refine ⟨e1.symm, e2.symm, ?_⟩
    rw [if_neg]
    · exact e3.symm
    · rintro ⟨h1, h2⟩
      apply hk
      have hu1 : 0 ≤ δ * (1 - u) := mul_nonneg hδ.le (by linarith)
      have hu0 : 0 ≤ δ * u := by positivity
      cases k <;> simp only [Sector.red, Sector.green, Sector.blue, true_and, reduceCtorEq, false_and] at * <;> nlinarith


/-- A colour object of class `t` with three real components. -/
noncomputable def obj (t : ColorType) (x y z : ℝ) (al : Fl) (sp : Option Nat) : Color := ⟨t, t, [fin x, fin y, fin z], al, Color.maxOf t, Color.minOf t, sp⟩

omit [ExactModel] in
theorem rgb_eq {c : Color} {r g b : ℝ} (h : IsRgb c r g b) : c = obj .rgbDeep r g b c.malpha c.space := h.eq

omit [FloatModel] [ExactModel] in
theorem clamp01 {x : ℝ} (h0 : 0 ≤ x) (h1 : x ≤ 1) : Color.clamp (fin x) 1 0 = fin x := by
  simpa using Color.clamp_of_inRange (v := fin x) (mn := 0) (mx := 1) (by simp [h0, h1])

section obj
variable (t : ColorType) (x y z : ℝ) (al : Fl) (sp : Option Nat)

omit [FloatModel] [ExactModel] in
@[simp] theorem obj_0 : (obj t x y z al sp).getComponent 0 = ok (fin x) := rfl
omit [FloatModel] [ExactModel] in
@[simp] theorem obj_1 : (obj t x y z al sp).getComponent 1 = ok (fin y) := rfl
omit [FloatModel] [ExactModel] in
@[simp] theorem obj_2 : (obj t x y z al sp).getComponent 2 = ok (fin z) := rfl
omit [FloatModel] [ExactModel] in
@[simp] theorem obj_space : (obj t x y z al sp).space = sp := rfl
omit [FloatModel] [ExactModel] in
@[simp] theorem obj_malpha : (obj t x y z al sp).malpha = al := rfl

omit [ExactModel] in
theorem obj_alpha (ht : Color.scalesAlpha t = false) : (obj t x y z al sp).alpha = al := by simp [Color.alpha, obj, ht]

omit [ExactModel] in
theorem mkRgb_obj {r g b : ℝ} (r0 : 0 ≤ r) (r1 : r ≤ 1) (g0 : 0 ≤ g) (g1 : g ≤ 1) (b0 : 0 ≤ b) (b1 : b ≤ 1) :
    Color.mkRgbDeep (fin r) (fin g) (fin b) al sp = obj .rgbDeep r g b al sp := by
  simp only [Color.mkRgbDeep, clamp01 r0 r1, clamp01 g0 g1, clamp01 b0 b1, obj, Color.maxOf, Color.minOf]

omit [ExactModel] in
theorem mkHue_grey (ht : Color.maxOf t = 1 ∧ Color.minOf t = 0) {v : ℝ} (v0 : 0 ≤ v) (v1 : v ≤ 1) :
    Color.mkHue t 0 0 (fin v) al sp = obj t 0 0 v al sp := by
  have hz : Color.clamp (fin 0) 359 0 = fin 0 := by simp [Color.clamp_fin]
  simp only [Color.mkHue, zero_def, Color.hueReduce_id (h := 0) (by norm_num) (by norm_num)]
  have h0 := clamp01 (x := 0) le_rfl (by norm_num)
  have hv := clamp01 v0 v1
  simp only [zero_def] at hz h0 hv
  simp only [hz, hv, h0, obj, ht.1, ht.2, zero_def]

omit [ExactModel] in
theorem mkHue_obj (ht : Color.maxOf t = 1 ∧ Color.minOf t = 0) {r g b mn δ : ℝ} {k : Sector} {u : ℝ} (hp : Pos r g b mn δ k u) {h : Fl}
    (hh : Color.hueReduce h = fin (k.hue u)) {s v : ℝ} (s0 : 0 ≤ s) (s1 : s ≤ 1) (v0 : 0 ≤ v) (v1 : v ≤ 1) :
    Color.mkHue t h (fin s) (fin v) al sp = obj t (k.hue (lim k u)) s v al sp := by
  simp only [Color.mkHue, hh, clamp_hue hp, clamp01 s0 s1, clamp01 v0 v1, obj, ht.1, ht.2]

end obj

omit [FloatModel] [ExactModel] in
theorem grey_of {r g b : ℝ} (h : max (max r g) b = min (min r g) b) : g = r ∧ b = r := by
  have hr1 : min (min r g) b ≤ r := (min_le_left _ _).trans (min_le_left _ _)
  have hg1 : min (min r g) b ≤ g := (min_le_left _ _).trans (min_le_right _ _)
  have hb1 : min (min r g) b ≤ b := min_le_right _ _
  have hr2 : r ≤ max (max r g) b := (le_max_left _ _).trans (le_max_left _ _)
  have hg2 : g ≤ max (max r g) b := (le_max_right _ _).trans (le_max_left _ _)
  have hb2 : b ≤ max (max r g) b := le_max_right _ _
  constructor <;> linarith

omit [FloatModel] [ExactModel] in
theorem lim_hue (k : Sector) {u : ℝ} (u0 : 0 ≤ u) (u1 : u ≤ 1) : 0 ≤ k.hue u ∧ k.hue u ≤ 360 := by
  cases k <;> simp only [Sector.hue] <;> constructor <;> linarith

omit [FloatModel] [ExactModel] in
theorem gapBlue_range {r g b : ℝ} (r1 : r ≤ 1) (g0 : 0 ≤ g) (b0 : 0 ≤ b) (b1 : b ≤ 1) : 0 ≤ gapBlue r g b ∧ gapBlue r g b ≤ 1 := by
  unfold gapBlue HueGap
  split
  · rename_i hgap; constructor <;> linarith [hgap.1, hgap.2]
  · exact ⟨b0, b1⟩

omit [FloatModel] [ExactModel] in
theorem gapBlue_grey (x : ℝ) : gapBlue x x x = x := by unfold gapBlue HueGap; rw [if_neg (by simp)]

/-- HSV to RGB. -/
theorem from_hsv (k : Sector) {u : ℝ} (u0 : 0 ≤ u) (u1 : u ≤ 1) (s v : ℝ) (al : Fl) (sp : Option Nat) :
    Leaf.hsv_to_rgb_deep (obj .hsv (k.hue u) s v al sp) =
      ok (Color.mkRgbDeep (fin (v - v * s * (1 - k.red u))) (fin (v - v * s * (1 - k.green u))) (fin (v - v * s * (1 - k.blue u))) al sp) := by
  obtain ⟨h0, h1⟩ := lim_hue k u0 u1
  obtain ⟨w1, w2, w3⟩ := hsv_weights k u u0 u1
  simp only [Leaf.hsv_to_rgb_deep, obj_0, obj_1, obj_2, obj_space, obj_malpha, obj_alpha _ _ _ _ _ _ (rfl : Color.scalesAlpha .hsv = false), ok_bind, Color.construct_rgbDeep,
    lit_def, one_def]
  rw [hsv_helper _ _ _ 5 h0 h1 (by norm_num) (by norm_num), hsv_helper _ _ _ 3 h0 h1 (by norm_num) (by norm_num),
    hsv_helper _ _ _ 1 h0 h1 (by norm_num) (by norm_num), w1, w2, w3]

/-- HSV there and back. -/
theorem hsv_trip {c : Color} {r g b : ℝ} (h : IsRgb c r g b) : ∃ d, Leaf.rgb_deep_to_hsv c = ok d ∧
    Leaf.hsv_to_rgb_deep d = ok (obj .rgbDeep r g (gapBlue r g b) c.malpha c.space) := by
  obtain ⟨-, -, r0, r1, g0, g1, b0, b1⟩ := id h
  rw [rgb_eq h]
  generalize c.malpha = al
  generalize c.space = sp
  simp only [Leaf.rgb_deep_to_hsv, obj_0, obj_1, obj_2, obj_space, obj_malpha, obj_alpha _ _ _ _ _ _ (rfl : Color.scalesAlpha .rgbDeep = false), ok_bind, fmin_fin, fmax_fin, feq_fin, Color.construct_hsv]
  by_cases hne : max (max r g) b = min (min r g) b
  · rw [if_pos hne]
    obtain ⟨rfl, rfl⟩ := grey_of hne
    refine ⟨_, rfl, ?_⟩
    rw [min_self, min_self, mkHue_grey _ _ _ ⟨rfl, rfl⟩ b0 b1]
    have := from_hsv .A (u := 0) le_rfl (by norm_num) 0 b al sp
    simp only [Sector.hue, mul_zero] at this
    rw [this, zero_mul, sub_zero, zero_mul, sub_zero, zero_mul, sub_zero, gapBlue_grey, mkRgb_obj _ _ b0 b1 b0 b1 b0 b1]
  · rw [if_neg hne]
    obtain ⟨mn, δ, k, u, hp, hh⟩ := exists_pos hne
    have hδ := hp.δ0
    have hmn0 : 0 ≤ mn := by rw [← hp.minEq]; exact le_min (le_min r0 g0) b0
    have hmx1 : mn + δ ≤ 1 := by rw [← hp.maxEq]; exact max_le (max_le r1 g1) b1
    have hpos : 0 < mn + δ := by linarith
    refine ⟨_, rfl, ?_⟩
    rw [hp.maxEq, hp.minEq, sub_exact, div_exact _ _ hpos.ne', mkHue_obj _ _ _ ⟨rfl, rfl⟩ hp hh (by rw [add_sub_cancel_left]; positivity)
      (by rw [div_le_one hpos]; linarith) hpos.le hmx1, from_hsv k (lim_range k hp.u0 hp.u1).1 (lim_range k hp.u0 hp.u1).2]
    obtain ⟨c1, c2, c3⟩ := lim_channels hp
    have key : ∀ x, mn + δ - (mn + δ) * ((mn + δ - mn) / (mn + δ)) * (1 - x) = mn + δ * x := by intro x; field_simp; ring
    rw [key, key, key, c1, c2, c3]
    obtain ⟨q0, q1⟩ := gapBlue_range r1 g0 b0 b1
    rw [mkRgb_obj _ _ r0 r1 g0 g1 q0 q1]

/-- HSL to RGB. -/
theorem from_hsl (k : Sector) {u : ℝ} (u0 : 0 ≤ u) (u1 : u ≤ 1) (s l : ℝ) (hl : l ≠ 0) (al : Fl) (sp : Option Nat) :
    Leaf.hsl_to_rgb_deep (obj .hsl (k.hue u) s l al sp) =
      ok (Color.mkRgbDeep (fin (l - s * min l (1 - l) * (1 - 2 * k.red u))) (fin (l - s * min l (1 - l) * (1 - 2 * k.green u)))
        (fin (l - s * min l (1 - l) * (1 - 2 * k.blue u))) al sp) := by
  obtain ⟨h0, h1⟩ := lim_hue k u0 u1
  obtain ⟨w1, w2, w3⟩ := hsl_weights k u u0 u1
  simp only [Leaf.hsl_to_rgb_deep, obj_0, obj_1, obj_2, obj_space, obj_malpha, obj_alpha _ _ _ _ _ _ (rfl : Color.scalesAlpha .hsl = false), ok_bind, Color.construct_rgbDeep,
    lit_def, one_def, zero_def, feq_fin, hl, if_false]
  rw [hsl_helper _ _ _ 0 h0 h1 (by norm_num) (by norm_num), hsl_helper _ _ _ 8 h0 h1 (by norm_num) (by norm_num),
    hsl_helper _ _ _ 4 h0 h1 (by norm_num) (by norm_num), w1, w2, w3]

/-- HSL there and back, unless the colour is black. -/
theorem hsl_trip {c : Color} {r g b : ℝ} (h : IsRgb c r g b) (hb : ¬ (r = 0 ∧ g = 0 ∧ b = 0)) : ∃ d, Leaf.rgb_deep_to_hsl c = ok d ∧
    Leaf.hsl_to_rgb_deep d = ok (obj .rgbDeep r g (gapBlue r g b) c.malpha c.space) := by
  obtain ⟨-, -, r0, r1, g0, g1, b0, b1⟩ := id h
  rw [rgb_eq h]
  generalize c.malpha = al
  generalize c.space = sp
  simp only [Leaf.rgb_deep_to_hsl, obj_0, obj_1, obj_2, obj_space, obj_malpha, obj_alpha _ _ _ _ _ _ (rfl : Color.scalesAlpha .rgbDeep = false), ok_bind, fmin_fin, fmax_fin, feq_fin, Color.construct_hsl]
  by_cases hne : max (max r g) b = min (min r g) b
  · rw [if_pos hne]
    obtain ⟨rfl, rfl⟩ := grey_of hne
    refine ⟨_, rfl, ?_⟩
    have hb' : b ≠ 0 := fun hh => hb ⟨hh, hh, hh⟩
    rw [min_self, min_self, mkHue_grey _ _ _ ⟨rfl, rfl⟩ b0 b1]
    have := from_hsl .A (u := 0) le_rfl (by norm_num) 0 b hb' al sp
    simp only [Sector.hue, mul_zero] at this
    rw [this, zero_mul, zero_mul, sub_zero, zero_mul, sub_zero, zero_mul, sub_zero, gapBlue_grey, mkRgb_obj _ _ b0 b1 b0 b1 b0 b1]
  · rw [if_neg hne]
    obtain ⟨mn, δ, k, u, hp, hh⟩ := exists_pos hne
    have hδ := hp.δ0
    have hmn0 : 0 ≤ mn := by rw [← hp.minEq]; exact le_min (le_min r0 g0) b0
    have hmx1 : mn + δ ≤ 1 := by rw [← hp.maxEq]; exact max_le (max_le r1 g1) b1
    refine ⟨_, rfl, ?_⟩
    rw [hp.maxEq, hp.minEq]
    simp only [sub_exact, add_exact, mul_exact, feq_fin, zero_def, one_def, lit_def, abs_fin]
    set l := 0.5 * (mn + δ + mn) with hl
    have l0 : 0 < l := by rw [hl]; linarith
    have l1 : l < 1 := by rw [hl]; linarith
    have habs : 1 - |2 * l - 1| = 2 * min l (1 - l) := by
      rcases le_total l (1 / 2) with h | h
      · rw [abs_of_nonpos (by linarith), min_eq_left (by linarith)]; ring
      · rw [abs_of_nonneg (by linarith), min_eq_right (by linarith)]; ring
    have hmin : 0 < min l (1 - l) := lt_min l0 (by linarith)
    have hmin2 : δ ≤ 2 * min l (1 - l) := by
      rcases le_total l (1 / 2) with h | h
      · rw [min_eq_left (by linarith)]; rw [hl]; linarith
      · rw [min_eq_right (by linarith)]; rw [hl]; linarith
    rw [if_neg (by rintro (h | h) <;> linarith), habs, div_exact _ _ (by positivity)]
    rw [mkHue_obj _ _ _ ⟨rfl, rfl⟩ hp hh (by rw [add_sub_cancel_left]; positivity)
      (by rw [div_le_one (by positivity)]; linarith) l0.le l1.le, from_hsl k (lim_range k hp.u0 hp.u1).1 (lim_range k hp.u0 hp.u1).2 _ _ l0.ne']
    obtain ⟨c1, c2, c3⟩ := lim_channels hp
    have key : ∀ x, l - (mn + δ - mn) / (2 * min l (1 - l)) * min l (1 - l) * (1 - 2 * x) = mn + δ * x := by
      intro x
      have : (mn + δ - mn) / (2 * min l (1 - l)) * min l (1 - l) = δ / 2 := by field_simp; ring
      rw [this, hl]; ring
    rw [key, key, key, c1, c2, c3]
    obtain ⟨q0, q1⟩ := gapBlue_range r1 g0 b0 b1
    rw [mkRgb_obj _ _ r0 r1 g0 g1 q0 q1]

/-- HCY to RGB. -/
theorem from_hcy (k : Sector) {u : ℝ} (u0 : 0 ≤ u) (u1 : u ≤ 1) (ch y : ℝ) (al : Fl) (sp : Option Nat) : Leaf.hcy_to_rgb_deep (obj .hcy (k.hue u) ch y al sp) =
      ok (Color.mkRgbDeep (fin ((k.red u - (k.red u * 0.2126 + k.green u * 0.7152 + k.blue u * 0.0722)) * ch + y))
        (fin ((k.green u - (k.red u * 0.2126 + k.green u * 0.7152 + k.blue u * 0.0722)) * ch + y))
        (fin ((k.blue u - (k.red u * 0.2126 + k.green u * 0.7152 + k.blue u * 0.0722)) * ch + y)) al sp) := by
  obtain ⟨w1, w2, w3⟩ := hcy_weights k u u0 u1
  simp only [Leaf.hcy_to_rgb_deep, obj_0, obj_1, obj_2, obj_space, obj_malpha, obj_alpha _ _ _ _ _ _ (rfl : Color.scalesAlpha .hcy = false), ok_bind, Color.construct_rgbDeep, w1, w2, w3,
    lit_exact, mul_exact, add_exact, sub_exact]

/-- Colours in the gap lie at the end of the last sector. -/
theorem gap_sector {r g b mn δ : ℝ} {k : Sector} {u : ℝ} (hp : Pos r g b mn δ k u) (hg : HueGap r g b) : k = .F ∧ 0 < u ∧ u < 1 / 60 := by
  by_contra hk
  have hk' : ¬ (k = .F ∧ u < 1 / 60) := by
    rintro ⟨h1, h2⟩
    exact hk ⟨h1, hp.f h1, h2⟩
  obtain ⟨-, -, c3⟩ := lim_channels hp
  rw [lim, if_neg hk', ← hp.blue, gapBlue, if_pos hg] at c3
  linarith [hg.2]

/-- In the gap the HCY round trip makes the red channel smaller. -/
theorem hcy_gap {c : Color} {r g b : ℝ} (h : IsRgb c r g b) (hgap : HueGap r g b) : ∃ d x y z, Leaf.rgb_deep_to_hcy c = ok d ∧
    Leaf.hcy_to_rgb_deep d = ok (Color.mkRgbDeep (fin x) y z c.malpha c.space) ∧ x < r := by
  obtain ⟨-, -, r0, r1, g0, g1, b0, b1⟩ := id h
  rw [rgb_eq h]
  generalize c.malpha = al
  generalize c.space = sp
  simp only [Leaf.rgb_deep_to_hcy, obj_0, obj_1, obj_2, obj_space, obj_malpha, obj_alpha _ _ _ _ _ _ (rfl : Color.scalesAlpha .rgbDeep = false), ok_bind, fmin_fin, fmax_fin, feq_fin, Color.construct_hcy]
  have hne : max (max r g) b ≠ min (min r g) b := by
    intro hh
    obtain ⟨h1, h2⟩ := grey_of hh
    linarith [hgap.1]
  rw [if_neg hne]
  obtain ⟨mn, δ, k, u, hp, hh⟩ := exists_pos hne
  have hδ := hp.δ0
  have hmn0 : 0 ≤ mn := by rw [← hp.minEq]; exact le_min (le_min r0 g0) b0
  have hmx1 : mn + δ ≤ 1 := by rw [← hp.maxEq]; exact max_le (max_le r1 g1) b1
  obtain ⟨rfl, u0, u1⟩ := gap_sector hp hgap
  have hl := lim_range .F hp.u0 hp.u1
  refine ⟨_, _, _, _, rfl, (congrArg Leaf.hcy_to_rgb_deep ?_).trans (from_hcy .F hl.1 hl.2 (mn + δ - mn) (0.2126 * r + 0.7152 * g + 0.0722 * b) al sp), ?_⟩
  · rw [hp.maxEq, hp.minEq]
    simp only [sub_exact, add_exact, mul_exact, lit_exact]
    rw [mkHue_obj _ _ _ ⟨rfl, rfl⟩ hp hh (by linarith) (by linarith) (by linarith) (by linarith)]
  · have e1 := hp.red; have e2 := hp.green; have e3 := hp.blue
    simp only [Sector.red, Sector.green, Sector.blue, lim, u1, true_and, if_true] at e1 e2 e3 ⊢
    have : δ * u < δ * (1 / 60) := by nlinarith
    rw [e1, e2, e3]
    linarith

/-- HCY there and back, outside the gap between 359 and 360 degrees. -/
theorem hcy_trip {c : Color} {r g b : ℝ} (h : IsRgb c r g b) (hgap : ¬ HueGap r g b) : ∃ d, Leaf.rgb_deep_to_hcy c = ok d ∧ Leaf.hcy_to_rgb_deep d = ok c := by
  have h' := rgb_eq h
  obtain ⟨-, -, r0, r1, g0, g1, b0, b1⟩ := id h
  rw [h']
  generalize c.malpha = al
  generalize c.space = sp
  simp only [Leaf.rgb_deep_to_hcy, obj_0, obj_1, obj_2, obj_space, obj_malpha, obj_alpha _ _ _ _ _ _ (rfl : Color.scalesAlpha .rgbDeep = false), ok_bind, fmin_fin, fmax_fin, feq_fin, Color.construct_hcy]
  by_cases hne : max (max r g) b = min (min r g) b
  · rw [if_pos hne]
    obtain ⟨rfl, rfl⟩ := grey_of hne
    refine ⟨_, rfl, ?_⟩
    rw [min_self, min_self, mkHue_grey _ _ _ ⟨rfl, rfl⟩ b0 b1]
    have := from_hcy .A (u := 0) le_rfl (by norm_num) 0 b al sp
    simp only [Sector.hue, mul_zero, zero_add] at this
    rw [this, mkRgb_obj _ _ b0 b1 b0 b1 b0 b1]
  · rw [if_neg hne]
    obtain ⟨mn, δ, k, u, hp, hh⟩ := exists_pos hne
    have hδ := hp.δ0
    have hmn0 : 0 ≤ mn := by rw [← hp.minEq]; exact le_min (le_min r0 g0) b0
    have hmx1 : mn + δ ≤ 1 := by rw [← hp.maxEq]; exact max_le (max_le r1 g1) b1
    refine ⟨_, rfl, ?_⟩
    rw [hp.maxEq, hp.minEq]
    simp only [sub_exact, add_exact, mul_exact, lit_exact]
    obtain ⟨c1, c2, c3⟩ := lim_channels hp
    rw [gapBlue, if_neg hgap] at c3
    rw [mkHue_obj _ _ _ ⟨rfl, rfl⟩ hp hh (by linarith) (by linarith) (by linarith) (by linarith), from_hcy k (lim_range k hp.u0 hp.u1).1 (lim_range k hp.u0 hp.u1).2]
    set R := k.red (lim k u)
    set G := k.green (lim k u)
    set B := k.blue (lim k u)
    have hy : 0.2126 * r + 0.7152 * g + 0.0722 * b = mn + δ * (R * 0.2126 + G * 0.7152 + B * 0.0722) := by rw [← c1, ← c2, ← c3]; ring
    have key : ∀ x, (x - (R * 0.2126 + G * 0.7152 + B * 0.0722)) * (mn + δ - mn) + (0.2126 * r + 0.7152 * g + 0.0722 * b) = mn + δ * x := by
      intro x; rw [hy]; ring
    rw [key, key, key, c1, c2, c3, mkRgb_obj _ _ r0 r1 g0 g1 b0 b1]

/-- HSI to RGB for colours with some saturation: the offset of the smallest channel is missing. -/
theorem from_hsi (k : Sector) {u : ℝ} (u0 : 0 ≤ u) (u1 : u ≤ 1) (s i : ℝ) (hs : s ≠ 0) (al : Fl) (sp : Option Nat) :
    Leaf.hsi_to_rgb_deep (obj .hsi (k.hue u) s i al sp) =
      ok (Color.mkRgbDeep (fin (3 * i * s / (1 + u) * k.red u)) (fin (3 * i * s / (1 + u) * k.green u)) (fin (3 * i * s / (1 + u) * k.blue u)) al sp) := by
  simp only [Leaf.hsi_to_rgb_deep, obj_0, obj_1, obj_2, obj_space, obj_alpha _ _ _ _ _ _ (rfl : Color.scalesAlpha .hsi = false), ok_bind,
    zero_def, feq_fin, hs, if_false]
  rw [hsi_z k u u0 u1]
  simp only [one_def, lit_def, add_exact, mul_exact]
  rw [div_exact (3 * i * s) (1 + u) (by linarith)]
  have := hsi_sector k u (3 * i * s / (1 + u)) u0 u1
  simp only [lit_def] at this
  rw [mul_exact, this, Color.construct_rgbDeep]

/-- HSI there and back for colours that are not grey: without the limit of 359 degrees `q` would be 1. -/
theorem hsi_trip {c : Color} {r g b : ℝ} (h : IsRgb c r g b) (hne : ¬ (g = r ∧ b = r)) : ∃ d x y z, Leaf.rgb_deep_to_hsi c = ok d ∧
    Leaf.hsi_to_rgb_deep d = ok (obj .rgbDeep x y z c.malpha c.space) ∧
    (¬ HueGap r g b → x = r - min (min r g) b ∧ y = g - min (min r g) b ∧ z = b - min (min r g) b) ∧ (HueGap r g b → x < r) := by
  replace hne : max (max r g) b ≠ min (min r g) b := fun hh => hne (grey_of hh)
  obtain ⟨-, -, r0, r1, g0, g1, b0, b1⟩ := id h
  rw [rgb_eq h]
  generalize c.malpha = al
  generalize c.space = sp
  simp only [Leaf.rgb_deep_to_hsi, obj_0, obj_1, obj_2, obj_space, obj_malpha, obj_alpha _ _ _ _ _ _ (rfl : Color.scalesAlpha .rgbDeep = false), ok_bind, fmin_fin, fmax_fin, feq_fin, Color.construct_hsi]
  rw [if_neg hne]
  obtain ⟨mn, δ, k, u, hp, hh⟩ := exists_pos hne
  have hδ := hp.δ0
  have hmn0 : 0 ≤ mn := by rw [← hp.minEq]; exact le_min (le_min r0 g0) b0
  have hmx1 : mn + δ ≤ 1 := by rw [← hp.maxEq]; exact max_le (max_le r1 g1) b1
  obtain ⟨c1, c2, c3⟩ := lim_channels hp
  obtain ⟨l0, l1⟩ := lim_range k hp.u0 hp.u1
  have u0 := hp.u0
  have u1 := hp.u1
  have hlu : u ≤ lim k u := by unfold lim; split <;> linarith
  have hsum : k.red u + k.green u + k.blue u = 1 + u := by
    cases k <;> simp only [Sector.red, Sector.green, Sector.blue] <;> ring
  have hi : r + g + b = 3 * mn + δ * (1 + u) := by rw [← hsum, hp.red, hp.green, hp.blue]; ring
  have hpos : 0 < δ * (1 + u) := by positivity
  have hi0 : 0 < (r + g + b) / 3 := by rw [hi]; positivity
  have hs : 1 - mn / ((r + g + b) / 3) = δ * (1 + u) / (r + g + b) := by
    have : r + g + b ≠ 0 := by linarith
    field_simp
    linarith
  have hs0 : 0 < δ * (1 + u) / (r + g + b) := div_pos hpos (by linarith)
  have hq0 : 0 ≤ (1 + u) / (1 + lim k u) := by positivity
  have hq1 : (1 + u) / (1 + lim k u) ≤ 1 := by rw [div_le_one (by linarith)]; linarith
  have key : 3 * ((r + g + b) / 3) * (δ * (1 + u) / (r + g + b)) / (1 + lim k u) = δ * ((1 + u) / (1 + lim k u)) := by
    have : r + g + b ≠ 0 := by linarith
    have : 1 + lim k u ≠ 0 := by linarith
    field_simp
  have rng : ∀ p : ℝ, 0 ≤ p → p ≤ 1 → 0 ≤ δ * ((1 + u) / (1 + lim k u)) * p ∧ δ * ((1 + u) / (1 + lim k u)) * p ≤ 1 := by
    intro p p0 p1
    refine ⟨by positivity, ?_⟩
    have : δ * ((1 + u) / (1 + lim k u)) ≤ 1 := by nlinarith
    have : 0 ≤ δ * ((1 + u) / (1 + lim k u)) := by positivity
    nlinarith
  have pat : (0 ≤ k.red (lim k u) ∧ k.red (lim k u) ≤ 1) ∧ (0 ≤ k.green (lim k u) ∧ k.green (lim k u) ≤ 1) ∧ (0 ≤ k.blue (lim k u) ∧ k.blue (lim k u) ≤ 1) := by
    generalize lim k u = l at l0 l1
    cases k <;> simp only [Sector.red, Sector.green, Sector.blue] <;> norm_num <;> exact ⟨l0, l1⟩
  refine ⟨_, δ * ((1 + u) / (1 + lim k u)) * k.red (lim k u), δ * ((1 + u) / (1 + lim k u)) * k.green (lim k u),
    δ * ((1 + u) / (1 + lim k u)) * k.blue (lim k u), rfl, ?_, ?_, ?_⟩
  · rw [hp.maxEq, hp.minEq]
    simp only [sub_exact, add_exact, lit_def, one_def]
    rw [div_exact _ _ (by norm_num), div_exact _ _ hi0.ne', sub_exact, hs]
    rw [mkHue_obj _ _ _ ⟨rfl, rfl⟩ hp hh hs0.le (by rw [div_le_one (by linarith)]; linarith) hi0.le (by linarith), from_hsi k l0 l1 _ _ hs0.ne', key]
    rw [mkRgb_obj _ _ (rng _ pat.1.1 pat.1.2).1 (rng _ pat.1.1 pat.1.2).2 (rng _ pat.2.1.1 pat.2.1.2).1 (rng _ pat.2.1.1 pat.2.1.2).2 (rng _ pat.2.2.1 pat.2.2.2).1 (rng _ pat.2.2.1 pat.2.2.2).2]
  · intro hgap
    rw [gapBlue, if_neg hgap] at c3
    have hlim : lim k u = u := by
      unfold lim
      rw [if_neg]
      rintro ⟨rfl, hu⟩
      have := hp.f rfl
      apply hgap
      have e1 := hp.red; have e2 := hp.green; have e3 := hp.blue
      simp only [Sector.red, Sector.green, Sector.blue] at e1 e2 e3
      have : δ * u < δ * (1 / 60) := by nlinarith
      have : 0 < δ * u := by positivity
      constructor <;> linarith
    rw [hp.minEq, hlim, div_self (by linarith), mul_one]
    rw [hlim] at c1 c2 c3
    refine ⟨?_, ?_, ?_⟩ <;> linarith
  · intro hgap
    obtain ⟨rfl, v0, v1⟩ := gap_sector hp hgap
    have e1 := hp.red
    simp only [Sector.red, lim, v1, true_and, if_true] at e1 ⊢
    have : (1 + u) / (1 + 1 / 60) < 1 := by rw [div_lt_one (by norm_num)]; linarith
    have : δ * ((1 + u) / (1 + 1 / 60)) < δ * 1 := mul_lt_mul_of_pos_left this hδ
    linarith

/-- HSI there and back for greys. -/
theorem hsi_grey {c : Color} {v : ℝ} (h : IsRgb c v v v) : ∃ d, Leaf.rgb_deep_to_hsi c = ok d ∧ Leaf.hsi_to_rgb_deep d = ok c := by
  obtain ⟨-, -, v0, v1, -⟩ := id h
  rw [rgb_eq h]
  generalize c.malpha = al
  generalize c.space = sp
  simp only [Leaf.rgb_deep_to_hsi, obj_0, obj_1, obj_2, obj_space, obj_malpha, obj_alpha _ _ _ _ _ _ (rfl : Color.scalesAlpha .rgbDeep = false), ok_bind, fmin_fin, fmax_fin, feq_fin, Color.construct_hsi,
    max_self, min_self, if_true]
  refine ⟨_, rfl, ?_⟩
  rw [mkHue_grey _ _ _ ⟨rfl, rfl⟩ v0 v1]
  simp only [Leaf.hsi_to_rgb_deep, obj_0, obj_1, obj_2, obj_space, obj_alpha _ _ _ _ _ _ (rfl : Color.scalesAlpha .hsi = false), ok_bind,
    zero_def, feq_fin, if_true, Color.constructGrey, Color.construct_rgbDeep, mkRgb_obj _ _ v0 v1 v0 v1 v0 v1]

/-- CMYK there and back. -/
theorem cmyk_trip {c : Color} {r g b : ℝ} (h : IsRgb c r g b) : ∃ d, Leaf.rgb_deep_to_cmyk c = ok d ∧ Leaf.cmyk_to_rgb_deep d = ok c := by
  obtain ⟨-, -, r0, r1, g0, g1, b0, b1⟩ := id h
  rw [rgb_eq h]
  generalize c.malpha = al
  generalize c.space = sp
  simp only [Leaf.rgb_deep_to_cmyk, obj_0, obj_1, obj_2, obj_space, obj_malpha, obj_alpha _ _ _ _ _ _ (rfl : Color.scalesAlpha .rgbDeep = false), ok_bind, fmax_fin, one_def, sub_exact, Color.construct_cmyk]
  refine ⟨_, rfl, ?_⟩
  set m := max (max r g) b with hm
  have hr2 : r ≤ m := (le_max_left _ _).trans (le_max_left _ _)
  have hg2 : g ≤ m := (le_max_right _ _).trans (le_max_left _ _)
  have hb2 : b ≤ m := le_max_right _ _
  have hm1 : m ≤ 1 := max_le (max_le r1 g1) b1
  have hm0 : 0 ≤ m := r0.trans hr2
  have e : ∀ x : ℝ, 1 - x - (1 - m) = m - x := fun x => by ring
  rw [e, e, e, show 1 - (1 - m) = m by ring]
  have k1 : Color.clamp (fin (1 - m)) 1 0 = fin (1 - m) := clamp01 (by linarith) (by linarith)
  have hal : ∀ (xs : List Fl), (⟨.cmyk, .cmyk, xs, al, 1, 0, sp⟩ : Color).alpha = al := fun _ => rfl
  rcases hm0.eq_or_lt with h0 | h0
  · have hr : r = 0 := by linarith
    have hg : g = 0 := by linarith
    have hb : b = 0 := by linarith
    rw [← h0] at k1
    rw [← h0, hr, hg, hb, sub_self, fin_div_zero]
    have hn : Color.clamp nan 1 0 = fin 1 := by simpa using Color.clamp_nan 1 0 zero_le_one
    simp only [Color.mkCmyk, show infOf 0 = nan by simp [infOf], hn, k1]
    simp only [Leaf.cmyk_to_rgb_deep, Conv.get4_0, Conv.get4_1, Conv.get4_2, Conv.get4_3, ok_bind, Color.construct_rgbDeep, hal]
    simp only [one_def, sub_exact, mul_exact, sub_self, zero_mul]
    rw [mkRgb_obj _ _ le_rfl (by norm_num) le_rfl (by norm_num) le_rfl (by norm_num)]
  · have q : ∀ x, 0 ≤ x → x ≤ m → Color.clamp (fin (m - x) / fin m) 1 0 = fin ((m - x) / m) := by
      intro x x0 xm
      rw [div_exact _ _ h0.ne', clamp01 (div_nonneg (by linarith) hm0) (by rw [div_le_one h0]; linarith)]
    simp only [Color.mkCmyk, k1, q r r0 hr2, q g g0 hg2, q b b0 hb2]
    simp only [Leaf.cmyk_to_rgb_deep, Conv.get4_0, Conv.get4_1, Conv.get4_2, Conv.get4_3, ok_bind, Color.construct_rgbDeep, hal]
    simp only [one_def, sub_exact, mul_exact]
    have z : ∀ x : ℝ, (1 - (m - x) / m) * (1 - (1 - m)) = x := by intro x; field_simp; ring
    rw [z, z, z, mkRgb_obj _ _ r0 r1 g0 g1 b0 b1]

section agree
variable (k : Sector) {u mn δ : ℝ}

omit [FloatModel] [ExactModel] in
theorem pattern_max (u0 : 0 ≤ u) (u1 : u ≤ 1) (hδ : 0 < δ) :
    max (max (mn + δ * k.red u) (mn + δ * k.green u)) (mn + δ * k.blue u) = mn + δ := by
  have hu : 0 ≤ δ * u := by positivity
  have hu1 : δ * u ≤ δ := by nlinarith
  cases k <;> simp only [Sector.red, Sector.green, Sector.blue, mul_one, mul_zero, add_zero] <;>
    apply le_antisymm <;> first | (refine max_le (max_le ?_ ?_) ?_ <;> linarith) | simp

omit [FloatModel] [ExactModel] in
theorem pattern_min (u0 : 0 ≤ u) (u1 : u ≤ 1) (hδ : 0 < δ) :
    min (min (mn + δ * k.red u) (mn + δ * k.green u)) (mn + δ * k.blue u) = mn := by
  have hu : 0 ≤ δ * u := by positivity
  have hu1 : δ * u ≤ δ := by nlinarith
  cases k <;> simp only [Sector.red, Sector.green, Sector.blue, mul_one, mul_zero, add_zero] <;>
    apply le_antisymm <;> first | (refine le_min (le_min ?_ ?_) ?_ <;> linarith) | simp

theorem mkHue_pattern (t : ColorType) (ht : Color.maxOf t = 1 ∧ Color.minOf t = 0) (al : Fl) (sp : Option Nat) (u0 : 0 ≤ u) (u1 : u ≤ 1) (hδ : 0 < δ)
    (hh : k.hue u ≤ 359) {s v : ℝ} (s0 : 0 ≤ s) (s1 : s ≤ 1) (v0 : 0 ≤ v) (v1 : v ≤ 1) :
    Color.mkHue t (Leaf.hueFromRgb (fin (mn + δ * k.red u)) (fin (mn + δ * k.green u)) (fin (mn + δ * k.blue u)) (fin (mn + δ)) (fin (mn + δ - mn)))
      (fin s) (fin v) al sp = obj t (k.hue u) s v al sp := by
  have hne : max (max (mn + δ * k.red u) (mn + δ * k.green u)) (mn + δ * k.blue u) ≠ min (min (mn + δ * k.red u) (mn + δ * k.green u)) (mn + δ * k.blue u) := by
    rw [pattern_max k u0 u1 hδ, pattern_min k u0 u1 hδ]; linarith
  obtain ⟨mn', δ', k', u', hp, hq⟩ := exists_pos hne
  have e1 := hp.minEq; have e2 := hp.maxEq
  rw [pattern_min k u0 u1 hδ] at e1
  rw [pattern_max k u0 u1 hδ] at e2
  subst e1
  have : δ = δ' := by linarith
  subst this
  have c : ∀ {x y : ℝ}, mn + δ * x = mn + δ * y → x = y := by
    intro x y hxy
    have : δ * x = δ * y := by linarith
    exact mul_left_cancel₀ hδ.ne' this
  have := hue_unique hp.u0 hp.u1 u0 u1 hp.hue_range.2 (by linarith) (c hp.red).symm (c hp.green).symm (c hp.blue).symm
  rw [this] at hq
  have h0 : 0 ≤ k.hue u := (lim_hue k u0 u1).1
  have hc : Color.clamp (fin (k.hue u)) 359 0 = fin (k.hue u) := by
    simp only [lit_def, zero_def, Color.clamp_fin, min_eq_left hh, max_eq_left h0]
  simp only [Color.mkHue, hq, hc, clamp01 s0 s1, clamp01 v0 v1, obj, ht.1, ht.2]

/-- RGB to HSV for a colour given by hue, smallest channel and chroma. -/
theorem to_hsv (al : Fl) (sp : Option Nat) (u0 : 0 ≤ u) (u1 : u ≤ 1) (hδ : 0 < δ) (hh : k.hue u ≤ 359) (m0 : 0 ≤ mn) (m1 : mn + δ ≤ 1) :
    Leaf.rgb_deep_to_hsv (obj .rgbDeep (mn + δ * k.red u) (mn + δ * k.green u) (mn + δ * k.blue u) al sp) = ok (obj .hsv (k.hue u) (δ / (mn + δ)) (mn + δ) al sp) := by
  simp only [Leaf.rgb_deep_to_hsv, obj_0, obj_1, obj_2, obj_space, obj_alpha _ _ _ _ _ _ (rfl : Color.scalesAlpha .rgbDeep = false), ok_bind, fmin_fin, fmax_fin, feq_fin, Color.construct_hsv]
  rw [pattern_max k u0 u1 hδ, pattern_min k u0 u1 hδ, if_neg (by linarith), sub_exact, div_exact _ _ (by linarith), add_sub_cancel_left]
  have := mkHue_pattern k (mn := mn) (s := δ / (mn + δ)) (v := mn + δ) .hsv ⟨rfl, rfl⟩ al sp u0 u1 hδ hh (by positivity) (by rw [div_le_one (by linarith)]; linarith) (by linarith) m1
  rw [add_sub_cancel_left] at this
  rw [this]

/-- RGB to HSL for a colour given by hue, smallest channel and chroma. -/
theorem to_hsl (al : Fl) (sp : Option Nat) (u0 : 0 ≤ u) (u1 : u ≤ 1) (hδ : 0 < δ) (hh : k.hue u ≤ 359) (m0 : 0 ≤ mn) (m1 : mn + δ ≤ 1) :
    Leaf.rgb_deep_to_hsl (obj .rgbDeep (mn + δ * k.red u) (mn + δ * k.green u) (mn + δ * k.blue u) al sp) =
      ok (obj .hsl (k.hue u) (δ / (1 - |2 * (mn + δ / 2) - 1|)) (mn + δ / 2) al sp) := by
  simp only [Leaf.rgb_deep_to_hsl, obj_0, obj_1, obj_2, obj_space, obj_alpha _ _ _ _ _ _ (rfl : Color.scalesAlpha .rgbDeep = false), ok_bind, fmin_fin, fmax_fin, feq_fin, Color.construct_hsl]
  rw [pattern_max k u0 u1 hδ, pattern_min k u0 u1 hδ, if_neg (by linarith)]
  simp only [sub_exact, add_exact, mul_exact, feq_fin, zero_def, one_def, lit_def, abs_fin]
  have hl : 0.5 * (mn + δ + mn) = mn + δ / 2 := by ring
  rw [hl, if_neg (by rintro (h | h) <;> linarith)]
  have hd : δ ≤ 1 - |2 * (mn + δ / 2) - 1| := by
    rcases abs_cases (2 * (mn + δ / 2) - 1) with ⟨h, -⟩ | ⟨h, -⟩ <;> rw [h] <;> linarith
  rw [div_exact _ _ (by linarith), add_sub_cancel_left]
  have := mkHue_pattern k (mn := mn) (s := δ / (1 - |2 * (mn + δ / 2) - 1|)) (v := mn + δ / 2) .hsl ⟨rfl, rfl⟩ al sp u0 u1 hδ hh
    (div_nonneg hδ.le (by linarith)) (by rw [div_le_one (by linarith)]; linarith) (by linarith) (by linarith)
  rw [add_sub_cancel_left] at this
  rw [this]

end agree

end Hue
