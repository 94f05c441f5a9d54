import Verif.BlendLemmas

/-!
# Specification of conversion results and lemmas for C104–C108

`Gives` states the components a conversion produces; `HueOf` is the hue of a colour, defined through the channels of the fully saturated colour of that hue.
-/

open Outcome Fl Prog ObjectSpec ConvSpec BlendSpec

namespace FormulaSpec

/-- A colour of type `t` with the components `xs`. -/
structure Is (t : ColorType) (c : Color) (xs : List ℝ) : Prop where
  col : IsColor t c
  comps : c.comps = xs.map fin

/-- Converting `c` to the type `t` gives a colour of that type with the components `xs`, the same opacity and the same colour space, wherever `c` is stored. -/
def Gives [FloatModel] (w : World) (c : Color) (t : ColorType) (xs : List ℝ) : Prop :=
  ∃ d, Converts w c t d ∧ Is t d xs ∧ d.alpha = c.alpha ∧ d.space = c.space

/-- A number limited to 0 … 1. -/
noncomputable def clip (x : ℝ) : ℝ := max 0 (min 1 x)

/-- Red channel of the fully saturated colour of hue `h` (in degrees, 0 … 360): 1 up to 60 degrees from red, 0 from 120 degrees on, linear in between. -/
noncomputable def hexRed (h : ℝ) : ℝ := clip (|h / 60 - 3| - 1)
/-- Green channel of the fully saturated colour of hue `h`. -/
noncomputable def hexGreen (h : ℝ) : ℝ := clip (2 - |h / 60 - 2|)
/-- Blue channel of the fully saturated colour of hue `h`. -/
noncomputable def hexBlue (h : ℝ) : ℝ := clip (2 - |h / 60 - 4|)

/-- Largest channel. -/
noncomputable def top (r g b : ℝ) : ℝ := max (max r g) b
/-- Smallest channel. -/
noncomputable def bot (r g b : ℝ) : ℝ := min (min r g) b

/-- `H` is the hue of the colour with channels `r`, `g`, `b`: the channels are those of the fully saturated colour of hue `H`, stretched to the range from the smallest to
the largest channel.  Greys have hue 0. -/
structure HueOf (r g b H : ℝ) : Prop where
  lo : 0 ≤ H
  hi : H < 360
  red : r = bot r g b + (top r g b - bot r g b) * hexRed H
  green : g = bot r g b + (top r g b - bot r g b) * hexGreen H
  blue : b = bot r g b + (top r g b - bot r g b) * hexBlue H
  grey : top r g b = bot r g b → H = 0

/-- Luma with the weights of ITU-R BT.709. -/
noncomputable def luma (r g b : ℝ) : ℝ := 0.2126 * r + 0.7152 * g + 0.0722 * b

end FormulaSpec

open FormulaSpec Hue

namespace Formula

theorem hex_sector (k : Sector) {u : ℝ} (u0 : 0 ≤ u) (u1 : u ≤ 1) :
    hexRed (k.hue u) = k.red u ∧ hexGreen (k.hue u) = k.green u ∧ hexBlue (k.hue u) = k.blue u := by
  have e : ∀ x : ℝ, 60 * x / 60 = x := fun x => by ring
  unfold hexRed hexGreen hexBlue clip
  cases k <;> simp only [Sector.hue, Sector.red, Sector.green, Sector.blue, e] <;> refine ⟨?_, ?_, ?_⟩ <;>
    simp only [max_def, min_def, abs_eq_max_neg] <;> split_ifs <;> linarith

theorem sector_of {h : ℝ} (h0 : 0 ≤ h) (h1 : h ≤ 360) : ∃ k u, 0 ≤ u ∧ u ≤ 1 ∧ Sector.hue k u = h ∧ Sector.red k u = hexRed h ∧ Sector.green k u = hexGreen h ∧
    Sector.blue k u = hexBlue h := by
  rcases h1.eq_or_lt with rfl | h1
  · obtain ⟨a, b, c⟩ := hex_sector .F (u := 0) le_rfl (by norm_num)
    have e : Sector.hue .F 0 = 360 := by norm_num [Sector.hue]
    rw [e] at a b c
    exact ⟨.F, 0, le_rfl, by norm_num, e, a.symm, b.symm, c.symm⟩
  · obtain ⟨k, u, u0, u1, -, rfl⟩ := exists_sector h h0 h1
    obtain ⟨a, b, c⟩ := hex_sector k u0 u1
    exact ⟨k, u, u0, u1, rfl, a.symm, b.symm, c.symm⟩

theorem hex_range (h : ℝ) : 0 ≤ hexRed h ∧ hexRed h ≤ 1 ∧ 0 ≤ hexGreen h ∧ hexGreen h ≤ 1 ∧ 0 ≤ hexBlue h ∧ hexBlue h ≤ 1 := by
  have : ∀ x, 0 ≤ clip x ∧ clip x ≤ 1 := fun x => ⟨le_max_left _ _, max_le (by norm_num) (min_le_left _ _)⟩
  exact ⟨(this _).1, (this _).2, (this _).1, (this _).2, (this _).1, (this _).2⟩

/-- A colour has exactly one hue. -/
theorem hueOf_unique {r g b H H' : ℝ} (h : HueOf r g b H) (h' : HueOf r g b H') : H = H' := by
  by_cases hg : top r g b = bot r g b
  · rw [h.grey hg, h'.grey hg]
  · have hne : top r g b - bot r g b ≠ 0 := sub_ne_zero.mpr hg
    obtain ⟨k, u, u0, u1, rfl, a, b', c⟩ := sector_of h.lo h.hi.le
    obtain ⟨k', u', u0', u1', rfl, a', b'', c'⟩ := sector_of h'.lo h'.hi.le
    have can : ∀ {x y : ℝ}, bot r g b + (top r g b - bot r g b) * x = bot r g b + (top r g b - bot r g b) * y → x = y := fun {x y} hh =>
      mul_left_cancel₀ hne (by linarith)
    refine hue_unique u0 u1 u0' u1' h.hi h'.hi ?_ ?_ ?_
    · rw [a, a']; exact can (h.red.symm.trans h'.red)
    · rw [b', b'']; exact can (h.green.symm.trans h'.green)
    · rw [c, c']; exact can (h.blue.symm.trans h'.blue)

theorem hueOf_grey (v : ℝ) : HueOf v v v 0 :=
  ⟨le_rfl, by norm_num, by simp [top, bot], by simp [top, bot], by simp [top, bot], fun _ => rfl⟩

theorem hueOf_pos {r g b mn δ : ℝ} {k : Sector} {u : ℝ} (hp : Pos r g b mn δ k u) : HueOf r g b (k.hue u) := by
  obtain ⟨a, b', c⟩ := hex_sector k hp.u0 hp.u1
  have ht : top r g b = mn + δ := hp.maxEq
  have hb : bot r g b = mn := hp.minEq
  refine ⟨hp.hue_range.1, hp.hue_range.2, ?_, ?_, ?_, ?_⟩
  · rw [ht, hb, a, add_sub_cancel_left]; exact hp.red
  · rw [ht, hb, b', add_sub_cancel_left]; exact hp.green
  · rw [ht, hb, c, add_sub_cancel_left]; exact hp.blue
  · intro hh; rw [ht, hb] at hh; have := hp.δ0; linarith

theorem hue_lim {r g b mn δ : ℝ} {k : Sector} {u : ℝ} (hp : Pos r g b mn δ k u) : k.hue (lim k u) = min (k.hue u) 359 := by
  have hc := clamp_hue hp
  have := hp.hue_range.1
  simp only [lit_def, zero_def, Color.clamp_fin, fin.injEq] at hc
  rw [← hc, max_eq_left (le_min this (by norm_num))]

theorem clip_of {x : ℝ} (h0 : 0 ≤ x) (h1 : x ≤ 1) : clip x = x := by rw [clip, min_eq_right h1, max_eq_right h0]

theorem clamp_clip (x : ℝ) : Color.clamp (fin x) 1 0 = fin (clip x) := by
  simp only [one_def, zero_def, Color.clamp_fin, clip, fin.injEq, min_comm, max_comm]

variable [FloatModel]

theorem mkRgb_clip (r g b : ℝ) (al : Fl) (sp : Option Nat) :
    Color.mkRgbDeep (fin r) (fin g) (fin b) al sp = obj .rgbDeep (clip r) (clip g) (clip b) al sp := by
  simp only [Color.mkRgbDeep, clamp_clip, obj, Color.maxOf, Color.minOf]

/-- The object with three components that `Is` describes. -/
theorem is_eq {t : ColorType} {c : Color} {x y z : ℝ} (h : Is t c [x, y, z]) : c = obj t x y z c.malpha c.space := by
  obtain ⟨⟨h1, h2, -, h3, h4⟩, h5⟩ := h
  cases c
  simp only [obj] at *
  simp_all

omit [FloatModel] in
theorem obj_is {t : ColorType} (ht : Color.count t = 3) (x y z : ℝ) (al : Fl) (sp : Option Nat) : Is t (obj t x y z al sp) [x, y, z] :=
  ⟨⟨rfl, rfl, by simp [obj, ht], rfl, rfl⟩, rfl⟩

theorem gives_obj {s t : ColorType} (hs : s ≠ .undefined) (ht : t ≠ .undefined) (hst : s ≠ t) (h3 : Color.count t = 3) (hsa : Color.scalesAlpha s = false)
    (hta : Color.scalesAlpha t = false) {w : World} {c : Color} (hc : IsColor s c) {x y z : ℝ} (he : Val.conv s t w c = ok (obj t x y z c.malpha c.space)) :
    Gives w c t [x, y, z] := by
  refine ⟨_, (converts_iff hs ht hc).mpr (by rw [Val.to, if_neg hst]; exact he), obj_is h3 _ _ _ _ _, ?_, rfl⟩
  simp [Color.alpha, hc.cls, hsa, hta, obj]

end Formula
