import Verif.Props.PixelBytes

/-!
# C180: which conversions give whole 8-bit channels

The classes RGB_TRUE and GREY_TRUE stand for 8-bit colours, but store floats.  Conversions that come from a class with channels up to 1 round (color_converter.cpp:113-116, 317-320, 327-330); the conversion of
RGB_TRUE to GREY_TRUE (color_converter.cpp:46-50) does not, and the one back (color_converter.cpp:247-250) copies.
-/

open Outcome Fl Prog ObjectSpec ConvSpec BlendSpec CombineSpec AdjustSpec Hue

namespace CombineSpec

/-- A GREY_TRUE colour with the 8-bit channel `V`, of any opacity. -/
structure IsGreyByte (c : Color) (V : ℕ) : Prop where
  col : IsColor .greyTrue c
  comps : c.comps = [fin V]
  level : V ≤ 255

end CombineSpec

namespace WholeByte

/-- Whatever is rounded and limited to 0..255 is a byte; not-a-number becomes 255. -/
theorem byte_of (x : Fl) : ∃ V : ℕ, V ≤ 255 ∧ Color.clamp (Fl.round x) 255 0 = fin V := by
  cases x with
  | nan => exact ⟨255, le_rfl, by simp [Fl.round, Color.clamp, fmin, fmax]⟩
  | pinf => exact ⟨255, le_rfl, by simp [Fl.round, Color.clamp, fmin, fmax]⟩
  | ninf => exact ⟨0, by norm_num, by simp [Fl.round, Color.clamp, fmin, fmax]⟩
  | fin y =>
    obtain ⟨V, hV⟩ : ∃ V : ℕ, (V : ℤ) = max (min (roundR y) 255) 0 := ⟨(max (min (roundR y) 255) 0).toNat, Int.toNat_of_nonneg (le_max_right _ _)⟩
    have hV' : (V : ℝ) = max (min (roundR y : ℝ) 255) 0 := by exact_mod_cast congrArg (Int.cast (R := ℝ)) hV
    have hV1 : V ≤ 255 := by
      have : max (min (roundR y) 255) 0 ≤ (255 : ℤ) := max_le (min_le_right _ _) (by norm_num)
      omega
    exact ⟨V, hV1, by simp only [lit_def, zero_def, round_fin, Color.clamp_fin, hV']⟩

section
variable [FloatModel]

theorem rgb_of {x y z al : Fl} {sp : Option Nat} {c' : Color} (e : Color.construct .rgbTrue [Fl.round x, Fl.round y, Fl.round z] al sp = ok c') : ∃ R G B, IsBytes c' R G B := by
  rw [Color.construct_rgbTrue, ok_inj] at e
  subst e
  obtain ⟨R, r1, eR⟩ := byte_of x
  obtain ⟨G, g1, eG⟩ := byte_of y
  obtain ⟨B, b1, eB⟩ := byte_of z
  exact ⟨R, G, B, ⟨rfl, rfl, rfl, rfl, rfl⟩, by simp only [Color.mkRgbTrue, eR, eG, eB], r1, g1, b1⟩

theorem deep {d c' : Color} (e : Leaf.rgb_deep_to_rgb_true d = ok c') : ∃ R G B, IsBytes c' R G B := by
  simp only [Leaf.rgb_deep_to_rgb_true, bind_eq_ok] at e
  obtain ⟨r, -, g, -, b, -, e⟩ := e
  exact rgb_of e

/-- Every conversion to RGB_TRUE from a class with other channels ends by rounding. -/
theorem to_true {s : ColorType} {w : World} {c c' : Color} (h1 : s ≠ .undefined) (h2 : ¬ EightBit s) (e : Val.to s .rgbTrue w c = ok c') : ∃ R G B, IsBytes c' R G B := by
  have hlast : ∀ {x : Outcome Color}, (x >>= Val.rgb_deep_to_rgb_true w) = ok c' → ∃ R G B, IsBytes c' R G B := fun h => by
    obtain ⟨d, -, h⟩ := bind_eq_ok.mp h
    exact deep h
  cases s <;> first | exact absurd rfl h1 | exact absurd (Or.inl rfl) h2 | exact absurd (Or.inr rfl) h2 | skip
  all_goals simp only [Val.to, reduceCtorEq, if_false, Val.conv] at e
  · exact deep e
  · change Leaf.grey_deep_to_rgb_true c = _ at e
    simp only [Leaf.grey_deep_to_rgb_true, bind_eq_ok] at e
    obtain ⟨v, -, e⟩ := e
    exact rgb_of e
  · exact hlast e
  · exact hlast e
  · exact hlast e
  · exact hlast e
  · exact hlast e
  · exact hlast e
  · obtain ⟨d, -, e⟩ := bind_eq_ok.mp e
    exact hlast e
  · obtain ⟨d, -, e⟩ := bind_eq_ok.mp e
    exact hlast e
  · obtain ⟨d, -, e⟩ := bind_eq_ok.mp e
    exact hlast e
  · obtain ⟨d, -, e⟩ := bind_eq_ok.mp e
    obtain ⟨d', -, e⟩ := bind_eq_ok.mp e
    exact hlast e
  · obtain ⟨d, -, e⟩ := bind_eq_ok.mp e
    obtain ⟨d', -, e⟩ := bind_eq_ok.mp e
    exact hlast e

/-- Every conversion to GREY_TRUE from a class that is not grey passes an RGB_TRUE colour of whole channels. -/
theorem to_grey {s : ColorType} {w : World} {c c' : Color} (h1 : s ≠ .undefined) (h2 : ¬ EightBit s) (h3 : s ≠ .greyDeep) (e : Val.to s .greyTrue w c = ok c') :
    ∃ b R G B, IsBytes b R G B ∧ Leaf.rgb_true_to_grey_true b = ok c' := by
  have hlast : ∀ {x : Outcome Color}, (x >>= Val.rgb_deep_to_grey_true w) = ok c' → ∃ b R G B, IsBytes b R G B ∧ Leaf.rgb_true_to_grey_true b = ok c' := fun h => by
    obtain ⟨d, -, h⟩ := bind_eq_ok.mp h
    obtain ⟨b, hb, h⟩ := bind_eq_ok.mp h
    obtain ⟨R, G, B, hB⟩ := deep hb
    exact ⟨b, R, G, B, hB, h⟩
  cases s <;> first | exact absurd rfl h1 | exact absurd (Or.inl rfl) h2 | exact absurd (Or.inr rfl) h2 | exact absurd rfl h3 | skip
  all_goals simp only [Val.to, reduceCtorEq, if_false, Val.conv] at e
  · obtain ⟨b, hb, h⟩ := bind_eq_ok.mp e
    obtain ⟨R, G, B, hB⟩ := deep hb
    exact ⟨b, R, G, B, hB, h⟩
  · exact hlast e
  · exact hlast e
  · exact hlast e
  · exact hlast e
  · exact hlast e
  · exact hlast e
  · obtain ⟨d, -, e⟩ := bind_eq_ok.mp e
    exact hlast e
  · obtain ⟨d, -, e⟩ := bind_eq_ok.mp e
    exact hlast e
  · obtain ⟨d, -, e⟩ := bind_eq_ok.mp e
    exact hlast e
  · obtain ⟨d, -, e⟩ := bind_eq_ok.mp e
    obtain ⟨d', -, e⟩ := bind_eq_ok.mp e
    exact hlast e
  · obtain ⟨d, -, e⟩ := bind_eq_ok.mp e
    obtain ⟨d', -, e⟩ := bind_eq_ok.mp e
    exact hlast e

/-- The grey of an 8-bit colour: the mean, not rounded to a byte. -/
theorem grey [FineError] [IntExact] {b c' : Color} {R G B : ℕ} (hb : IsBytes b R G B) (e : Leaf.rgb_true_to_grey_true b = ok c') :
    IsColor .greyTrue c' ∧ ∃ v : ℝ, c'.comps = [fin v] ∧ 0 ≤ v ∧ v ≤ 255 ∧ |v - (R + G + B) / 3| ≤ 1 / 10000 ∧ ∀ V : ℕ, R + G + B = 3 * V → v = V := by
  have g0 : b.getComponent 0 = ok (fin R) := Conv.getComponent_of (by norm_num) (by rw [hb.comps]; rfl)
  have g1 : b.getComponent 1 = ok (fin G) := Conv.getComponent_of (by norm_num) (by rw [hb.comps]; rfl)
  have g2 : b.getComponent 2 = ok (fin B) := Conv.getComponent_of (by norm_num) (by rw [hb.comps]; rfl)
  simp only [Leaf.rgb_true_to_grey_true, g0, g1, g2, ok_bind, Color.construct_greyTrue, ok_inj] at e
  have b1 := hb.red
  have b2 := hb.green
  have b3 := hb.blue
  have e1 : fin (R : ℝ) + fin (G : ℝ) = fin ((R + G : ℕ) : ℝ) := by
    have := IntExact.rnd_int ((R + G : ℕ) : ℤ) (by rw [abs_of_nonneg (by positivity)]; push_cast; omega)
    rw [fin_add]
    push_cast at this ⊢
    exact this
  have e2 : fin ((R + G : ℕ) : ℝ) + fin (B : ℝ) = fin ((R + G + B : ℕ) : ℝ) := by
    have := IntExact.rnd_int ((R + G + B : ℕ) : ℤ) (by rw [abs_of_nonneg (by positivity)]; push_cast; omega)
    rw [fin_add]
    push_cast at this ⊢
    exact this
  have hs0 : (0 : ℝ) ≤ ((R + G + B : ℕ) : ℝ) / 3 := by positivity
  have hs1 : ((R + G + B : ℕ) : ℝ) / 3 ≤ 255 := by
    have : ((R + G + B : ℕ) : ℝ) ≤ 765 := by exact_mod_cast (by omega : R + G + B ≤ 765)
    linarith
  obtain ⟨y, ey, ny⟩ := FineError.rnd_near (((R + G + B : ℕ) : ℝ) / 3) (by rw [abs_of_nonneg hs0]; exact hs1.trans (by norm_num))
  have e3 : fin (R : ℝ) + fin (G : ℝ) + fin (B : ℝ) = fin ((R + G + B : ℕ) : ℝ) := by rw [e1, e2]
  rw [e3, lit_def, fin_div _ _ (by norm_num), ey] at e
  have hy : |y - ((R + G + B : ℕ) : ℝ) / 3| ≤ 1 / 10000 := by
    rw [abs_of_nonneg hs0] at ny
    exact ny.trans (by norm_num at *; linarith)
  have hy0 : 0 ≤ y := by
    have := FloatModel.rnd_mono 0 _ hs0
    rw [FloatModel.rnd_zero, ey] at this
    simpa using this
  have hy1 : y ≤ 255 := by
    have := FloatModel.rnd_mono _ _ hs1
    rw [ey, show (255 : ℝ) = ((255 : ℤ) : ℝ) by norm_num, IntExact.rnd_int 255 (by norm_num)] at this
    simpa using this
  subst e
  refine ⟨⟨rfl, rfl, rfl, rfl, rfl⟩, y, ?_, hy0, hy1, by push_cast at hy; exact hy, fun V hV => ?_⟩
  · simp only [Color.mkGreyTrue, lit_def, zero_def, Color.clamp_fin, min_eq_left hy1, max_eq_left hy0]
  · have hq : ((R + G + B : ℕ) : ℝ) / 3 = ((V : ℤ) : ℝ) := by rw [hV]; push_cast; ring
    rw [hq, IntExact.rnd_int V (by rw [abs_of_nonneg (by positivity)]; omega)] at ey
    simpa using ey.symm

/-- A sum of bytes that is no multiple of three has a mean far from every byte. -/
theorem third {S V : ℕ} (h : ¬ 3 ∣ S) : (1 / 3 : ℝ) ≤ |(S : ℝ) / 3 - V| := by
  have h1 : S + 1 ≤ 3 * V ∨ 3 * V + 1 ≤ S := by omega
  rw [le_abs]
  rcases h1 with h1 | h1
  · right
    have : (S : ℝ) + 1 ≤ 3 * V := by exact_mod_cast h1
    linarith
  · left
    have : 3 * (V : ℝ) + 1 ≤ S := by exact_mod_cast h1
    linarith

end
end WholeByte

section
variable [FloatModel]

/-- C180: a colour of any class without 8-bit channels, whatever its components are (also infinities and not-a-number), becomes an RGB_TRUE colour whose channels are whole numbers from 0 to 255, and a
GREY_DEEP colour becomes a GREY_TRUE colour with such a channel, in every arithmetic. -/
theorem C180_whole_partial (w : World) (s : ColorType) (hs : s ≠ .undefined) (h8 : ¬ EightBit s) (c : Color) (hc : IsColor s c) (hw : Cie s → w.Usable c.space) :
    (∃ c' R G B, Converts w c .rgbTrue c' ∧ IsBytes c' R G B) ∧ (s = .greyDeep → ∃ c' V, Converts w c .greyTrue c' ∧ IsGreyByte c' V) := by
  constructor
  · obtain ⟨c', e, -, -⟩ := val_to_total hs (t := .rgbTrue) (by simp) hc (w := w) (fun h _ => hw (h.elim id (fun h => absurd h (by simp [Cie]))))
    obtain ⟨R, G, B, hB⟩ := WholeByte.to_true hs h8 e
    exact ⟨c', R, G, B, (converts_iff hs (by simp) hc).mpr e, hB⟩
  · rintro rfl
    obtain ⟨c', e, -, -⟩ := val_to_total hs (t := .greyTrue) (by simp) hc (w := w) (fun h _ => hw (h.elim id (fun h => absurd h (by simp [Cie]))))
    refine ⟨c', ?_⟩
    have e' := e
    simp only [Val.to, reduceCtorEq, if_false, Val.conv] at e
    change Leaf.grey_deep_to_grey_true c = _ at e
    simp only [Leaf.grey_deep_to_grey_true, bind_eq_ok] at e
    obtain ⟨v, -, e⟩ := e
    rw [Color.construct_greyTrue, ok_inj] at e
    obtain ⟨V, v1, eV⟩ := WholeByte.byte_of (v * 255)
    refine ⟨V, (converts_iff hs (by simp) hc).mpr e', ?_⟩
    subst e
    exact ⟨⟨rfl, rfl, rfl, rfl, rfl⟩, by simp only [Color.mkGreyTrue, eV], v1⟩

/-- Case: an HSV colour without a number in it. -/
example (w : World) : ∃ c' R G B, Converts w ⟨.hsv, .hsv, [.nan, .nan, .nan], .nan, 1, 0, none⟩ .rgbTrue c' ∧ IsBytes c' R G B :=
  (C180_whole_partial w .hsv (by simp) (by simp [EightBit]) _ ⟨rfl, rfl, rfl, rfl, rfl⟩ (by simp [Cie])).1

/-- C180: the GREY_TRUE colour of an RGB_TRUE colour with whole channels keeps the mean of the channels, up to rounding errors of single precision; it is a byte when the sum of the channels is a multiple of
three and is no byte otherwise.  Converted back to RGB_TRUE, it has that value in all channels. -/
theorem C180_grey [FineError] [IntExact] (w : World) (c : Color) (R G B : ℕ) (hc : IsBytes c R G B) :
    ∃ g b v, Converts w c .greyTrue g ∧ IsColor .greyTrue g ∧ g.comps = [fin v] ∧ |v - (R + G + B) / 3| ≤ 1 / 10000 ∧ Converts w g .rgbTrue b ∧ b.comps = [fin v, fin v, fin v] ∧
      ((∃ V, IsGreyByte g V) ↔ 3 ∣ R + G + B) ∧ ((∃ R' G' B', IsBytes b R' G' B') ↔ 3 ∣ R + G + B) := by
  obtain ⟨g, e, -, -⟩ := val_to_total (s := .rgbTrue) (t := .greyTrue) (by simp) (by simp) hc.col (w := w) (by simp [Cie])
  have e' := e
  simp only [Val.to, reduceCtorEq, if_false, Val.conv] at e'
  obtain ⟨hg, v, hv, v0, v1, hn, hx⟩ := WholeByte.grey hc e'
  obtain ⟨b, eb, -, -⟩ := val_to_total (s := .greyTrue) (t := .rgbTrue) (by simp) (by simp) hg (w := w) (by simp [Cie])
  have eb' := eb
  simp only [Val.to, reduceCtorEq, if_false, Val.conv] at eb'
  change Leaf.grey_true_to_rgb_true g = _ at eb'
  have g0 : g.getComponent 0 = ok (fin v) := Conv.getComponent_of (by norm_num) (by rw [hv]; rfl)
  simp only [Leaf.grey_true_to_rgb_true, g0, ok_bind, Color.constructGrey, Color.construct_rgbTrue, ok_inj] at eb'
  have hb : b.comps = [fin v, fin v, fin v] := by
    rw [← eb']
    simp only [Color.mkRgbTrue, lit_def, zero_def, Color.clamp_fin, min_eq_left v1, max_eq_left v0]
  have hno : ¬ 3 ∣ R + G + B → ∀ V : ℕ, v ≠ V := fun h V hV => by
    have h3 := WholeByte.third (V := V) h
    rw [hV, abs_sub_comm] at hn
    push_cast at h3
    linarith
  have hyes : 3 ∣ R + G + B → ∃ V : ℕ, v = V ∧ V ≤ 255 := fun ⟨V, hV⟩ => ⟨V, hx V hV, by have := hc.red; have := hc.green; have := hc.blue; omega⟩
  refine ⟨g, b, v, (converts_iff (by simp) (by simp) hc.col).mpr e, hg, hv, hn, (converts_iff (by simp) (by simp) hg).mpr eb, hb, ⟨fun ⟨V, hV⟩ => ?_, fun h => ?_⟩,
    ⟨fun ⟨R', G', B', hV⟩ => ?_, fun h => ?_⟩⟩
  · by_contra h
    have := hV.comps
    rw [hv] at this
    exact hno h V (by simpa using this)
  · obtain ⟨V, rfl, hV⟩ := hyes h
    exact ⟨V, hg, hv, hV⟩
  · by_contra h
    have := hV.comps
    rw [hb] at this
    simp only [List.cons.injEq, fin_inj, and_true] at this
    exact hno h R' this.1
  · obtain ⟨V, rfl, hV⟩ := hyes h
    refine ⟨V, V, V, ?_, hb, hV, hV, hV⟩
    rw [← eb']
    exact ⟨rfl, rfl, rfl, rfl, rfl⟩

/-- C180: a colour of any class other than the grey and the 8-bit ones becomes a GREY_TRUE colour that holds a third of a whole number, up to rounding errors of single precision. -/
theorem C180_thirds [FineError] [IntExact] (w : World) (s : ColorType) (hs : s ≠ .undefined) (h8 : ¬ EightBit s) (hg : s ≠ .greyDeep) (c : Color) (hc : IsColor s c) (hw : Cie s → w.Usable c.space) :
    ∃ c' v, ∃ n : ℕ, Converts w c .greyTrue c' ∧ c'.comps = [fin v] ∧ n ≤ 765 ∧ |v - n / 3| ≤ 1 / 10000 ∧ (3 ∣ n → v = n / 3) := by
  obtain ⟨c', e, -, -⟩ := val_to_total hs (t := .greyTrue) (by simp) hc (w := w) (fun h _ => hw (h.elim id (fun h => absurd h (by simp [Cie]))))
  obtain ⟨b, R, G, B, hB, hb⟩ := WholeByte.to_grey hs h8 hg e
  obtain ⟨-, v, hv, -, -, hn, hx⟩ := WholeByte.grey hB hb
  refine ⟨c', v, R + G + B, (converts_iff hs (by simp) hc).mpr e, hv, by have := hB.red; have := hB.green; have := hB.blue; omega, by push_cast; exact hn, fun ⟨V, hV⟩ => ?_⟩
  rw [hx V hV, hV]
  push_cast
  ring

/-- Case: a CMYK colour. -/
example [FineError] [IntExact] (w : World) : ∃ c' v, ∃ n : ℕ, Converts w ⟨.cmyk, .cmyk, [fin 1, fin 0, fin (1 / 2), fin 0], fin 1, 1, 0, none⟩ .greyTrue c' ∧ c'.comps = [fin v] ∧ n ≤ 765 ∧
    |v - n / 3| ≤ 1 / 10000 ∧ (3 ∣ n → v = n / 3) :=
  C180_thirds w .cmyk (by simp) (by simp [EightBit]) (by simp) _ ⟨rfl, rfl, rfl, rfl, rfl⟩ (by simp [Cie])

end

/-- C180 violated: in single precision the GREY_TRUE colour of the 8-bit colour (0, 0, 1) is no 8-bit grey, and the RGB_TRUE colour of that grey has no whole channels. -/
theorem C180_violated (w : World) : letI := Binary32.binary32
    ∃ c g b : Color, IsBytes c 0 0 1 ∧ Converts w c .greyTrue g ∧ (¬ ∃ V, IsGreyByte g V) ∧ Converts w g .rgbTrue b ∧ ¬ ∃ R G B, IsBytes b R G B := by
  letI := Binary32.binary32
  haveI := Binary32.binary32_fine
  haveI := Binary32.binary32_int
  have hc : IsBytes ⟨.rgbTrue, .rgbTrue, [fin (0 : ℕ), fin (0 : ℕ), fin (1 : ℕ)], fin 1, 255, 0, none⟩ 0 0 1 := ⟨⟨rfl, rfl, rfl, rfl, rfl⟩, rfl, by norm_num, by norm_num, by norm_num⟩
  obtain ⟨g, b, v, h1, -, -, -, h2, -, h3, h4⟩ := C180_grey w _ 0 0 1 hc
  exact ⟨_, g, b, hc, h1, fun h => absurd (h3.mp h) (by norm_num), h2, fun h => absurd (h4.mp h) (by norm_num)⟩

/-- Case of `C180_grey`: the grey of (10, 20, 30) is the byte 20. -/
example (w : World) : letI := Binary32.binary32
    ∃ c g : Color, IsBytes c 10 20 30 ∧ Converts w c .greyTrue g ∧ ∃ V, IsGreyByte g V := by
  letI := Binary32.binary32
  haveI := Binary32.binary32_fine
  haveI := Binary32.binary32_int
  have hc : IsBytes ⟨.rgbTrue, .rgbTrue, [fin (10 : ℕ), fin (20 : ℕ), fin (30 : ℕ)], fin 1, 255, 0, none⟩ 10 20 30 := ⟨⟨rfl, rfl, rfl, rfl, rfl⟩, rfl, by norm_num, by norm_num, by norm_num⟩
  obtain ⟨g, b, v, h1, -, -, -, -, -, h3, -⟩ := C180_grey w _ 10 20 30 hc
  exact ⟨_, g, hc, h1, h3.mpr (by norm_num)⟩
