import Verif.TurnNear
import Verif.Props.Single
import Verif.Props.Combinations2

/-!
# Complements and triplets of 8-bit colours in single precision (C163)

The theorems hold for every arithmetic with small rounding errors and exact small integers; `Binary32.binary32` is one.
-/

open Outcome Fl Prog ObjectSpec ConvSpec BlendSpec CombineSpec Hue

namespace CombineSpec

/-- An RGB_TRUE colour with the 8-bit channels `R`, `G` and `B`, of any opacity. -/
structure IsBytes (c : Color) (R G B : ℕ) : Prop where
  col : IsColor .rgbTrue c
  comps : c.comps = [fin R, fin G, fin B]
  red : R ≤ 255
  green : G ≤ 255
  blue : B ≤ 255

/-- The hue of the 8-bit colour is not far inside the last degree before 360: there the blue that the setter leaves is at most a third of a step from `B`. -/
def OffRed (R G B : ℕ) : Prop := G < B → R ≤ G + 60 * (B - G) + 20

/-- The hue of the 8-bit colour is far inside the last degree before 360. -/
def InRed (R G B : ℕ) : Prop := G < B ∧ G + 60 * (B - G) + 40 ≤ R

/-- Largest plus smallest channel. -/
def ends (R G B : ℕ) : ℕ := max (max R G) B + min (min R G) B

end CombineSpec

namespace TurnByte

section
variable [FloatModel] [IntExact] [SmallError]

omit [IntExact] in
/-- The deep colour of an 8-bit colour. -/
theorem deep {c : Color} {R G B : ℕ} (h : IsBytes c R G B) : ∃ d r g b, Leaf.rgb_true_to_rgb_deep c = ok d ∧ IsRgb d r g b ∧ d.space = c.space ∧
    (fin r = Color.clamp (fin R / 255) 1 0 ∧ fin g = Color.clamp (fin G / 255) 1 0 ∧ fin b = Color.clamp (fin B / 255) 1 0) ∧
    (|r - R / 255| ≤ 1 / 100000 ∧ |g - G / 255| ≤ 1 / 100000 ∧ |b - B / 255| ≤ 1 / 100000) := by
  obtain ⟨r, er, nr⟩ := byte_frac h.red
  obtain ⟨g, eg, ng⟩ := byte_frac h.green
  obtain ⟨b, eb, nb⟩ := byte_frac h.blue
  have lim : ∀ v : Fl, ∀ x : ℝ, Color.clamp v 1 0 = fin x → 0 ≤ x ∧ x ≤ 1 := by
    intro v x hv
    have := Color.clamp_inRange v (mx := 1) (mn := 0) (by norm_num)
    simp only [one_def, zero_def] at hv
    rw [hv] at this; simpa using this
  have lr := lim _ _ er
  have lg := lim _ _ eg
  have lb := lim _ _ eb
  refine ⟨Color.mkRgbDeep (fin R / 255) (fin G / 255) (fin B / 255) (c.alpha / 255) c.space, r, g, b, ?_, ⟨⟨rfl, rfl, rfl, rfl, rfl⟩, ?_, lr.1, lr.2, lg.1, lg.2, lb.1, lb.2⟩, rfl,
    ⟨er.symm, eg.symm, eb.symm⟩, ⟨nr, ng, nb⟩⟩
  · have hc := h.comps
    cases c
    simp only at hc
    subst hc
    simp only [Leaf.rgb_true_to_rgb_deep, Conv.get3_0, Conv.get3_1, Conv.get3_2, ok_bind, Color.construct_rgbDeep]
  · simp only [Color.mkRgbDeep, er, eg, eb]

omit [IntExact] [SmallError] [FloatModel] in
theorem apart {R G : ℕ} {r g : ℝ} (hr : |r - R / 255| ≤ 1 / 100000) (hg : |g - G / 255| ≤ 1 / 100000) (h : R = G → r = g) : Apart r g := by
  rw [abs_le] at hr hg
  rcases lt_trichotomy R G with e | e | e
  · right
    have : (R : ℝ) + 1 ≤ G := by exact_mod_cast e
    rw [abs_sub_comm]
    exact le_trans (by linarith) (le_abs_self _)
  · exact .inl (h e)
  · right
    have : (G : ℝ) + 1 ≤ R := by exact_mod_cast e
    exact le_trans (by linarith) (le_abs_self _)

omit [IntExact] [SmallError] [FloatModel] in
/-- The blue that the setter leaves. -/
theorem gap_close {R G B : ℕ} {r g b e : ℝ} (he : 0 ≤ e) (hr : |r - R / 255| ≤ e) (hg : |g - G / 255| ≤ e) (hb : |b - B / 255| ≤ e)
    (hgb : B ≤ G → b ≤ g) (hok : OffRed R G B) : |gapBlue r g b - B / 255| ≤ 13073 / 10000000 + 2 * e := by
  rw [abs_le] at hr hg hb
  unfold gapBlue
  split
  · rename_i hgap
    have hGB : G < B := by
      by_contra hGB
      exact absurd hgap.1 (not_lt.mpr (hgb (not_lt.mp hGB)))
    have h2 := hok hGB
    have h2' : (R : ℝ) ≤ G + 60 * (B - G) + 20 := by
      have : R + 60 * G ≤ G + 60 * B + 20 := by omega
      have : ((R + 60 * G : ℕ) : ℝ) ≤ ((G + 60 * B + 20 : ℕ) : ℝ) := by exact_mod_cast this
      push_cast at this; linarith
    have h3 := hgap.2
    rw [abs_le]
    constructor <;> linarith
  · rw [abs_le]; constructor <;> linarith

omit [IntExact] [SmallError] [FloatModel] in
theorem ends_close {R G B : ℕ} {r g b : ℝ} (hr : |r - R / 255| ≤ 1 / 100000) (hg : |g - G / 255| ≤ 1 / 100000) (hb : |b - B / 255| ≤ 1 / 100000) :
    |max (max r g) b + min (min r g) b - (ends R G B : ℝ) / 255| ≤ 2 / 100000 := by
  have e1 : ((max (max R G) B : ℕ) : ℝ) / 255 = max (max ((R : ℝ) / 255) (G / 255)) (B / 255) := by
    push_cast; rw [max_div_div_right (by norm_num), max_div_div_right (by norm_num)]
  have e2 : ((min (min R G) B : ℕ) : ℝ) / 255 = min (min ((R : ℝ) / 255) (G / 255)) (B / 255) := by
    push_cast; rw [min_div_div_right (by norm_num), min_div_div_right (by norm_num)]
  have h1 : |max (max r g) b - ((max (max R G) B : ℕ) : ℝ) / 255| ≤ 1 / 100000 := by
    rw [e1]
    exact (abs_max_sub_max_le_max _ _ _ _).trans (max_le ((abs_max_sub_max_le_max _ _ _ _).trans (max_le hr hg)) hb)
  have h2 : |min (min r g) b - ((min (min R G) B : ℕ) : ℝ) / 255| ≤ 1 / 100000 := by
    rw [e2]
    exact (abs_min_sub_min_le_max _ _ _ _).trans (max_le ((abs_min_sub_min_le_max _ _ _ _).trans (max_le hr hg)) hb)
  have e3 : (ends R G B : ℝ) / 255 = ((max (max R G) B : ℕ) : ℝ) / 255 + ((min (min R G) B : ℕ) : ℝ) / 255 := by
    rw [ends]; push_cast; ring
  rw [e3]
  rw [abs_le] at h1 h2 ⊢
  constructor <;> linarith

omit [IntExact] in
/-- What the setter of RGB_TRUE stores of deep channels. -/
theorem true_comps (x y z : ℝ) (al : Fl) (sp : Option Nat) : ∃ q, Leaf.rgb_deep_to_rgb_true (obj .rgbDeep x y z al sp) = ok q ∧
    q.comps = [Color.clamp (Fl.round (fin x * 255)) 255 0, Color.clamp (Fl.round (fin y * 255)) 255 0, Color.clamp (Fl.round (fin z * 255)) 255 0] := by
  refine ⟨Color.mkRgbTrue (Fl.round (fin x * 255)) (Fl.round (fin y * 255)) (Fl.round (fin z * 255)) (Fl.round (Color.alpha (obj .rgbDeep x y z al sp) * 255)) sp, ?_, rfl⟩
  simp only [Leaf.rgb_deep_to_rgb_true, obj_0, obj_1, obj_2, ok_bind, Color.construct_rgbTrue, obj_space]

omit [IntExact] in
theorem stored {n : ℕ} (hn : n ≤ 255) {x : ℝ} (hx : |x - n / 255| ≤ 19 / 10000) : Color.clamp (Fl.round (fin x * 255)) 255 0 = fin n := by
  rw [back_to_byte' hn hx]
  have : (n : ℝ) ≤ 255 := by exact_mod_cast hn
  simp only [lit_def, zero_def, Color.clamp_fin, min_eq_left this, max_eq_left (Nat.cast_nonneg n)]

omit [IntExact] in
/-- A deep channel half a step too low becomes another 8-bit channel. -/
theorem lowered {n : ℕ} (hn : n ≤ 255) {z : ℝ} (h0 : 0 ≤ z) (h1 : z ≤ (n : ℝ) / 255 - 1 / 500) : Color.clamp (Fl.round (fin z * 255)) 255 0 ≠ fin n := by
  have hn1 : (n : ℝ) ≤ 255 := by exact_mod_cast hn
  obtain ⟨y, hy, ny⟩ := near_rnd (r := z * 255) (by rw [abs_of_nonneg (by linarith)]; linarith)
  rw [abs_of_nonneg (a := z * 255) (by linarith)] at ny
  have ny' := abs_le.mp ny
  have hy' : y < (n : ℝ) - 1 / 2 := by linarith
  simp only [lit_def, zero_def]
  rw [fin_mul, hy, round_fin, Color.clamp_fin]
  intro h
  rw [fin_inj] at h
  have hn0 : (0 : ℝ) < n := by linarith
  have hr : (roundR y : ℝ) < n := by
    unfold roundR
    split
    · have : ⌊y + 1 / 2⌋ < (n : ℤ) := by rw [Int.floor_lt]; push_cast; linarith
      exact_mod_cast this
    · have : ⌈y - 1 / 2⌉ < (n : ℤ) := by
        have : ⌈y - 1 / 2⌉ ≤ (0 : ℤ) := by rw [Int.ceil_le]; push_cast; linarith
        have : (0 : ℤ) < n := by exact_mod_cast hn0
        omega
      exact_mod_cast this
  have := max_lt (lt_of_le_of_lt (min_le_left (roundR y : ℝ) 255) hr) hn0
  linarith

omit [IntExact] [SmallError] [FloatModel] in
/-- Far inside the last degree the setter lifts blue. -/
theorem gap_far {R G B : ℕ} {r g b e : ℝ} (he : 0 ≤ e) (he' : e ≤ 3 / 100000) (hr : |r - R / 255| ≤ e) (hg : |g - G / 255| ≤ e) (hb : |b - B / 255| ≤ e) (h : InRed R G B) :
    HueGap r g b ∧ (B : ℝ) / 255 + 1 / 390 ≤ gapBlue r g b := by
  obtain ⟨hGB, hgap⟩ := h
  have h2' : (G : ℝ) + 60 * (B - G) + 40 ≤ R := by
    have : G + 60 * B + 40 ≤ R + 60 * G := by omega
    have : ((G + 60 * B + 40 : ℕ) : ℝ) ≤ ((R + 60 * G : ℕ) : ℝ) := by exact_mod_cast this
    push_cast at this; linarith
  have h1' : (G : ℝ) + 1 ≤ B := by exact_mod_cast hGB
  rw [abs_le] at hr hg hb
  have hg' : HueGap r g b := ⟨by linarith, by linarith⟩
  refine ⟨hg', ?_⟩
  rw [gapBlue, if_pos hg']
  linarith

/-- The colour with its hue turned by `m` sixths, converted back: the deep channels behind it. -/
theorem turned {w : World} {c q : Color} {R G B : ℕ} (h : IsBytes c R G B) (hbl : ¬ (R = 0 ∧ G = 0 ∧ B = 0)) (m : ℕ) (m2 : 2 ≤ m) (m4 : m ≤ 4) (f : Fl → Fl)
    (hf : ∀ x : ℝ, f (fin x) = rnd (x + 60 * m)) (hq : Rehued w .rgbTrue c f q) :
    ∃ r g b r1 g1 b1 r' g' b' : ℝ, (|r - R / 255| ≤ 1 / 100000 ∧ |g - G / 255| ≤ 1 / 100000 ∧ |b - B / 255| ≤ 1 / 100000) ∧ ((G ≤ R → g ≤ r) ∧ (R ≤ G → r ≤ g) ∧ (B ≤ G → b ≤ g) ∧ (G ≤ B → g ≤ b) ∧ (R ≤ B → r ≤ b) ∧ (B ≤ R → b ≤ r)) ∧
      (sixth (max (max r g) b + min (min r g) b))^[m] (r, g, gapBlue r g b) = (r1, g1, b1) ∧ |r' - r1| ≤ 1 / 2000 ∧ |g' - g1| ≤ 1 / 2000 ∧ |b' - gapBlue r1 g1 b1| ≤ 1 / 2000 ∧
      (0 ≤ b' ∧ b' ≤ 1) ∧
      q.comps = [Color.clamp (Fl.round (fin r' * 255)) 255 0, Color.clamp (Fl.round (fin g' * 255)) 255 0, Color.clamp (Fl.round (fin b' * 255)) 255 0] := by
  obtain ⟨d, r, g, b, h1, hd, hsp, ⟨er, eg, eb⟩, hn⟩ := deep h
  have ap : ∀ {X Y : ℕ} {x y : ℝ}, fin x = Color.clamp (fin X / 255) 1 0 → fin y = Color.clamp (fin Y / 255) 1 0 → X = Y → x = y := by
    rintro X Y x y e1 e2 rfl
    rw [← e2, fin_inj] at e1; exact e1
  obtain ⟨x, y, z, r1, g1, b1, r', g', b', h2, hs, n1, n2, n3, -, -, l3, hb⟩ := turn_near hd (not_black hn.1 hn.2.1 hn.2.2 hbl) (apart hn.1 hn.2.1 (ap er eg)) (apart hn.2.1 hn.2.2 (ap eg eb))
    (apart hn.2.2 hn.1 (ap eb er)) m m2 m4 f hf
  refine ⟨r, g, b, r1, g1, b1, r', g', b', hn, ⟨fun h => byte_mono h eg er, fun h => byte_mono h er eg, fun h => byte_mono h eb eg, fun h => byte_mono h eg eb, fun h => byte_mono h er eb,
    fun h => byte_mono h eb er⟩, hs, n1, n2, n3, l3, ?_⟩
  obtain ⟨d', x', y', z', e, a1, a2, a3, a4⟩ := hq
  have a1 := (converts_iff (s := .rgbTrue) (by simp) (by simp) h.col).mp a1
  have v : Val.to .rgbTrue .hsl w c = ok (obj .hsl x y z d.malpha d.space) := by
    show (Leaf.rgb_true_to_rgb_deep c >>= Leaf.rgb_deep_to_hsl) = _
    rw [h1, ok_bind, h2]
  rw [v, ok_inj] at a1
  subst a1
  simp only [obj, List.cons.injEq, and_true] at a2
  obtain ⟨rfl, rfl, rfl⟩ := a2
  rw [Color.construct_hsl, ok_inj] at a3
  have he : IsColor .hsl e := a3 ▸ Combine.mkHsl_color ..
  have a4 := (converts_iff (by simp) (by simp) he).mp a4
  have v2 : Val.to .hsl .rgbTrue w e = (Leaf.hsl_to_rgb_deep e >>= Leaf.rgb_deep_to_rgb_true) := rfl
  rw [v2, ← a3, hb, ok_bind] at a4
  obtain ⟨q', e1, e2⟩ := true_comps r' g' b' c.alpha c.space
  rw [e1, ok_inj] at a4
  rw [← a4, e2]

omit [SmallError] in
theorem turn_half (x : ℝ) : fin x + rnd 1 * (360 / rnd 2) = rnd (x + 60 * (3 : ℕ)) := by
  rw [show rnd (1 : ℝ) = fin 1 by simpa using rnd_nat 1 (by norm_num), show rnd (2 : ℝ) = fin 2 by simpa using rnd_nat 2 (by norm_num)]
  simp only [lit_def]
  rw [fin_div _ _ (by norm_num), show (360 : ℝ) / 2 = (180 : ℕ) by norm_num, rnd_nat 180 (by norm_num), fin_mul, one_mul, rnd_nat 180 (by norm_num), fin_add]
  congr 1; norm_num

omit [SmallError] in
theorem turn_third (j : ℕ) (hj : j ≤ 2) (x : ℝ) : fin x + rnd (j : ℝ) * (360 / rnd ((3 : ℤ) : ℝ)) = rnd (x + 60 * ((2 * j : ℕ) : ℝ)) := by
  rw [rnd_nat j (by omega), show rnd ((3 : ℤ) : ℝ) = fin 3 by simpa using rnd_nat 3 (by norm_num)]
  simp only [lit_def]
  rw [fin_div _ _ (by norm_num), show (360 : ℝ) / 3 = (120 : ℕ) by norm_num, rnd_nat 120 (by norm_num), fin_mul, show (j : ℝ) * (120 : ℕ) = (j * 120 : ℕ) by push_cast; ring,
    rnd_nat (j * 120) (by omega), fin_add]
  congr 1; push_cast; ring

end

theorem sixth_two (s r g b : ℝ) : (sixth s)^[2] (r, g, b) = (b, r, g) := by
  simp only [Function.iterate_succ, Function.iterate_zero, Function.comp_apply, id_eq, sixth, Prod.mk.injEq]
  refine ⟨?_, ?_, ?_⟩ <;> ring

theorem sixth_three (s r g b : ℝ) : (sixth s)^[3] (r, g, b) = (s - r, s - g, s - b) := by
  simp only [Function.iterate_succ, Function.iterate_zero, Function.comp_apply, id_eq, sixth, Prod.mk.injEq]
  refine ⟨?_, ?_, ?_⟩ <;> ring

theorem sixth_four (s r g b : ℝ) : (sixth s)^[4] (r, g, b) = (g, b, r) := by
  simp only [Function.iterate_succ, Function.iterate_zero, Function.comp_apply, id_eq, sixth, Prod.mk.injEq]
  refine ⟨?_, ?_, ?_⟩ <;> ring

end TurnByte

open TurnByte

section
variable [FloatModel] [IntExact] [SmallError]

theorem CombineSpec.IsBytes.base {c : Color} {R G B : ℕ} (h : IsBytes c R G B) (w : World) : Base w .rgbTrue c := ⟨by simp, by simp, h.col, by simp [Cie]⟩

omit [FloatModel] [IntExact] [SmallError] in
theorem CombineSpec.ends_le {R G B X : ℕ} (hX : X = R ∨ X = G ∨ X = B) : X ≤ ends R G B ∧ (R ≤ 255 → G ≤ 255 → B ≤ 255 → ends R G B - X ≤ 255) := by
  unfold ends
  rcases hX with rfl | rfl | rfl <;> omega

/-- **C163 (partial)** The complement of an 8-bit colour is, channel by channel, largest plus smallest channel minus the channel, exactly, whatever the (small) rounding errors.  Missing: black
(`C77_black_violated`), and colours whose hue, or that of the complement, is far inside the last degree before 360 (`C163_complement_violated`). -/
theorem C163_complement_partial (w : World) (c : Color) (R G B : ℕ) (h : IsBytes c R G B) (hbl : ¬ (R = 0 ∧ G = 0 ∧ B = 0)) (h1 : OffRed R G B)
    (h2 : OffRed (ends R G B - R) (ends R G B - G) (ends R G B - B)) :
    ∃ q, Complements w c q ∧ IsBytes q (ends R G B - R) (ends R G B - G) (ends R G B - B) := by
  obtain ⟨q, hq, hre, hbq, -⟩ := (h.base w).complement
  refine ⟨q, hq, ?_⟩
  obtain ⟨r, g, b, r1, g1, b1, r', g', b', ⟨hr, hg, hb⟩, ⟨o1, o2, o3, o4, o5, o6⟩, hs, n1, n2, n3, -, hcomps⟩ := turned h hbl 3 (by norm_num) (by norm_num) _ turn_half hre
  rw [sixth_three, Prod.mk.injEq, Prod.mk.injEq] at hs
  obtain ⟨rfl, rfl, rfl⟩ := hs
  have he := ends_close hr hg hb
  have hR := ends_le (R := R) (G := G) (B := B) (X := R) (.inl rfl)
  have hG := ends_le (R := R) (G := G) (B := B) (X := G) (.inr (.inl rfl))
  have hB := ends_le (R := R) (G := G) (B := B) (X := B) (.inr (.inr rfl))
  have bR := hR.2 h.red h.green h.blue
  have bG := hG.2 h.red h.green h.blue
  have bB := hB.2 h.red h.green h.blue
  generalize hS : ends R G B = S at *
  generalize max (max r g) b + min (min r g) b = s at *
  have cast : ∀ X : ℕ, X ≤ S → ((S - X : ℕ) : ℝ) = S - X := fun X hX => by push_cast [hX]; ring
  have close : ∀ {X : ℕ} {x e : ℝ}, X ≤ S → |x - X / 255| ≤ e → |s - x - ((S - X : ℕ) : ℝ) / 255| ≤ e + 2 / 100000 := by
    intro X x e hX hx
    rw [cast X hX]
    rw [abs_le] at *
    constructor <;> linarith
  have tri : ∀ {x y z e e' : ℝ}, |x - y| ≤ e → |y - z| ≤ e' → |x - z| ≤ e + e' := fun h h' => (abs_sub_le _ _ _).trans (add_le_add h h')
  refine ⟨hbq.col, ?_, bR, bG, bB⟩
  rw [hcomps, stored bR ((tri n1 (close hR.1 hr)).trans (by norm_num)), stored bG ((tri n2 (close hG.1 hg)).trans (by norm_num)), stored bB]
  by_cases hgap : HueGap r g b
  · -- the stored hue is 359, the complement far from red
    have : ¬ HueGap (s - r) (s - g) (s - gapBlue r g b) := by
      rw [gapBlue, if_pos hgap]
      rintro ⟨q1, -⟩
      linarith [hgap.1, hgap.2]
    rw [gapBlue, if_neg this] at n3
    have := close hB.1 (gap_close (by norm_num) hr hg hb o3 h1)
    exact (tri n3 this).trans (by norm_num)
  · have e : gapBlue r g b = b := by rw [gapBlue, if_neg hgap]
    rw [e] at n3
    have := gap_close (e := 3 / 100000) (by norm_num) ((close hR.1 hr).trans (by norm_num)) ((close hG.1 hg).trans (by norm_num)) ((close hB.1 hb).trans (by norm_num))
      (fun hh => by have := o4 (by omega); linarith) h2
    exact (tri n3 this).trans (by norm_num)

/-- **C163 violated** When the hue of an 8-bit colour, or the opposite hue, is far inside the last degree before 360, the complement has another blue. -/
theorem C163_complement_violated (w : World) (c : Color) (R G B : ℕ) (h : IsBytes c R G B)
    (hin : InRed R G B ∨ InRed (ends R G B - R) (ends R G B - G) (ends R G B - B)) :
    ∃ q, Complements w c q ∧ q.comps[2]? ≠ some (fin ((ends R G B - B : ℕ) : ℝ)) := by
  obtain ⟨q, hq, hre, hbq, -⟩ := (h.base w).complement
  refine ⟨q, hq, ?_⟩
  have hbl : ¬ (R = 0 ∧ G = 0 ∧ B = 0) := by
    rintro ⟨rfl, rfl, rfl⟩
    unfold InRed ends at hin; omega
  obtain ⟨r, g, b, r1, g1, b1, r', g', b', ⟨hr, hg, hb⟩, ⟨o1, o2, o3, o4, o5, o6⟩, hs, n1, n2, n3, l3, hcomps⟩ := turned h hbl 3 (by norm_num) (by norm_num) _ turn_half hre
  rw [sixth_three, Prod.mk.injEq, Prod.mk.injEq] at hs
  obtain ⟨rfl, rfl, rfl⟩ := hs
  have he := ends_close hr hg hb
  have hR := ends_le (R := R) (G := G) (B := B) (X := R) (.inl rfl)
  have hG := ends_le (R := R) (G := G) (B := B) (X := G) (.inr (.inl rfl))
  have hB := ends_le (R := R) (G := G) (B := B) (X := B) (.inr (.inr rfl))
  have bR := hR.2 h.red h.green h.blue
  have bB := hB.2 h.red h.green h.blue
  generalize hS : ends R G B = S at *
  generalize max (max r g) b + min (min r g) b = s at *
  have cast : ∀ X : ℕ, X ≤ S → ((S - X : ℕ) : ℝ) = S - X := fun X hX => by push_cast [hX]; ring
  have close : ∀ {X : ℕ} {x e : ℝ}, X ≤ S → |x - X / 255| ≤ e → |s - x - ((S - X : ℕ) : ℝ) / 255| ≤ e + 2 / 100000 := by
    intro X x e hX hx
    rw [cast X hX]
    rw [abs_le] at *
    constructor <;> linarith
  have hcb : q.comps[2]? = some (Color.clamp (Fl.round (fin b' * 255)) 255 0) := by rw [hcomps]; rfl
  rw [hcb, Ne, Option.some.injEq]
  rcases hin with hin | hin
  · obtain ⟨hgap, hlow⟩ := gap_far (by norm_num) (by norm_num) hr hg hb hin
    have : ¬ HueGap (s - r) (s - g) (s - gapBlue r g b) := by
      rw [gapBlue, if_pos hgap]
      rintro ⟨q1, -⟩
      linarith [hgap.1, hgap.2]
    rw [gapBlue, if_neg this] at n3
    refine lowered bB l3.1 ?_
    rw [cast B hB.1]
    rw [abs_le] at he n3
    linarith
  · have hgap : ¬ HueGap r g b := by
      rintro ⟨q1, -⟩
      have : S - G < S - B := hin.1
      have := o3 (by omega)
      linarith
    have e : gapBlue r g b = b := by rw [gapBlue, if_neg hgap]
    rw [e] at n3
    obtain ⟨-, hlow⟩ := gap_far (e := 3 / 100000) (by norm_num) (by norm_num) ((close hR.1 hr).trans (by norm_num)) ((close hG.1 hg).trans (by norm_num)) ((close hB.1 hb).trans (by norm_num)) hin
    rw [abs_le] at n3
    refine byte_lifted (by have := hin.1; have := hin.2; omega) (by linarith) (by linarith [l3.2])

/-- **C163 (partial)** Taking the complement twice gives the channels of an 8-bit colour back, exactly.  Missing: as above. -/
theorem C163_involution_partial (w : World) (c : Color) (R G B : ℕ) (h : IsBytes c R G B) (hbl : ¬ (R = 0 ∧ G = 0 ∧ B = 0)) (h1 : OffRed R G B)
    (h2 : OffRed (ends R G B - R) (ends R G B - G) (ends R G B - B)) : ∃ q q', Complements w c q ∧ Complements w q q' ∧ q'.comps = c.comps := by
  obtain ⟨q, hq, hb⟩ := C163_complement_partial w c R G B h hbl h1 h2
  have he : ends (ends R G B - R) (ends R G B - G) (ends R G B - B) = ends R G B := by unfold ends; omega
  have eR : ends R G B - (ends R G B - R) = R := by unfold ends; omega
  have eG : ends R G B - (ends R G B - G) = G := by unfold ends; omega
  have eB : ends R G B - (ends R G B - B) = B := by unfold ends; omega
  obtain ⟨q', hq', hb'⟩ := C163_complement_partial w q _ _ _ hb (by unfold ends; omega) h2 (by rw [he, eR, eG, eB]; exact h1)
  rw [he, eR, eG, eB] at hb'
  exact ⟨q, q', hq, hq', by rw [hb'.comps, h.comps]⟩

/-- **C163 (partial)** The triplet of an 8-bit colour consists of the colour and the two colours with its channels handed on in a circle, exactly.  Missing: black, and colours one of whose three hues
is far inside the last degree before 360. -/
theorem C163_triplet_partial (c : Color) (R G B : ℕ) (hc : IsBytes c R G B) (hbl : ¬ (R = 0 ∧ G = 0 ∧ B = 0)) (h1 : OffRed R G B) (h2 : OffRed B R G) (h3 : OffRed G B R)
    (h : Heap) (i : Nat) (hi : h.colors[i]? = some c) :
    ∃ k1 k2 q1 q2 h', Combine.create_triplet (some i) h = (ok [some i, k1, k2], h') ∧ IsNew h h' k1 q1 ∧ IsNew h h' k2 q2 ∧ IsBytes q1 B R G ∧ IsBytes q2 G B R := by
  have hbase := hc.base h.world
  obtain ⟨ks, h', e1, e2⟩ := C76_converted .rgbTrue c h i hi hbase 3 (by norm_num) (by norm_num)
  obtain ⟨ks', h'', e1', l, k0, -, all⟩ := C75_size_partial .rgbTrue c h i hi hbase 3 (by norm_num) (by norm_num)
  rw [e1, Prod.mk.injEq, ok_inj] at e1'
  obtain ⟨rfl, rfl⟩ := e1'
  obtain ⟨k1, q1, a1, b1, c1⟩ := e2 1 (by norm_num) (by norm_num)
  obtain ⟨k2, q2, a2, b2, c2⟩ := e2 2 (by norm_num) (by norm_num)
  have col : ∀ {j : ℕ} {k q}, 0 < j → ks[j]? = some k → IsNew h h' k q → IsColor .rgbTrue q := by
    intro j k q hj hk hq
    obtain ⟨q', hq', hcol, -⟩ := all j k hj hk
    obtain ⟨i1, rfl, -, g1⟩ := hq
    obtain ⟨i2, e, -, g2⟩ := hq'
    rw [Option.some.injEq] at e
    subst e
    rw [g1, Option.some.injEq] at g2
    rwa [g2]
  have tri : ∀ {x y z e e' : ℝ}, |x - y| ≤ e → |y - z| ≤ e' → |x - z| ≤ e + e' := fun h h' => (abs_sub_le _ _ _).trans (add_le_add h h')
  refine ⟨k1, k2, q1, q2, h', ?_, b1, b2, ?_, ?_⟩
  · rw [Combine.create_triplet, e1]
    congr 2
    have l3 : ks.length = 3 := by exact_mod_cast l
    match ks, l3, k0, a1, a2 with
    | [x, y, z], _, k0, a1, a2 => simp at k0 a1 a2; rw [k0, a1, a2]
  · obtain ⟨r, g, b, r1, g1, b1', r', g', b', ⟨hr, hg, hb⟩, ⟨o1, o2, o3, o4, o5, o6⟩, hs, n1, n2, n3, -, hcomps⟩ := turned hc hbl 2 (by norm_num) (by norm_num) _ (turn_third 1 (by norm_num)) c1
    rw [sixth_two, Prod.mk.injEq, Prod.mk.injEq] at hs
    obtain ⟨rfl, rfl, rfl⟩ := hs
    refine ⟨col (by norm_num) a1 b1, ?_, hc.blue, hc.red, hc.green⟩
    rw [hcomps, stored hc.blue ((tri n1 (gap_close (by norm_num) hr hg hb o3 h1)).trans (by norm_num)), stored hc.red ((tri n2 hr).trans (by norm_num)), stored hc.green]
    by_cases hgap : HueGap r g b
    · have : ¬ HueGap (gapBlue r g b) r g := by rintro ⟨q1, -⟩; linarith [hgap.1, hgap.2]
      rw [gapBlue, if_neg this] at n3
      exact (tri n3 hg).trans (by norm_num)
    · have e : gapBlue r g b = b := by rw [gapBlue, if_neg hgap]
      rw [e] at n3
      exact (tri n3 (gap_close (by norm_num) hb hr hg o1 h2)).trans (by norm_num)
  · obtain ⟨r, g, b, r1, g1, b1', r', g', b', ⟨hr, hg, hb⟩, ⟨o1, o2, o3, o4, o5, o6⟩, hs, n1, n2, n3, -, hcomps⟩ := turned hc hbl 4 (by norm_num) (by norm_num) _ (turn_third 2 (by norm_num)) c2
    rw [sixth_four, Prod.mk.injEq, Prod.mk.injEq] at hs
    obtain ⟨rfl, rfl, rfl⟩ := hs
    refine ⟨col (by norm_num) a2 b2, ?_, hc.green, hc.blue, hc.red⟩
    rw [hcomps, stored hc.green ((tri n1 hg).trans (by norm_num)), stored hc.blue ((tri n2 (gap_close (by norm_num) hr hg hb o3 h1)).trans (by norm_num)), stored hc.red]
    by_cases hgap : HueGap r g b
    · have : ¬ HueGap g (gapBlue r g b) r := by
        rw [gapBlue, if_pos hgap]
        rintro ⟨q1, q2⟩; linarith [hgap.1, hgap.2]
      rw [gapBlue, if_neg this] at n3
      exact (tri n3 hr).trans (by norm_num)
    · have e : gapBlue r g b = b := by rw [gapBlue, if_neg hgap]
      rw [e] at n3
      exact (tri n3 (gap_close (by norm_num) hg hb hr o5 h3)).trans (by norm_num)

/-- An 8-bit colour. -/
theorem isBytes_mk (R G B : ℕ) (hR : R ≤ 255) (hG : G ≤ 255) (hB : B ≤ 255) (al : Fl) (sp : Option Nat) : IsBytes ⟨.rgbTrue, .rgbTrue, [fin R, fin G, fin B], al, 255, 0, sp⟩ R G B :=
  ⟨⟨rfl, rfl, rfl, rfl, rfl⟩, rfl, hR, hG, hB⟩

/-- Cases: the complement of orange, twice the complement of a blue, the triplet of orange, in single precision; a red with a trace of blue, and its opposite, go wrong. -/
example (w : World) (al : Fl) : letI := Binary32.binary32
    ∃ q, Complements w ⟨.rgbTrue, .rgbTrue, [fin (255 : ℕ), fin (128 : ℕ), fin (10 : ℕ)], al, 255, 0, none⟩ q ∧ IsBytes q 10 137 255 :=
  letI := Binary32.binary32
  letI := Binary32.binary32_int
  letI := Binary32.binary32_small
  C163_complement_partial w _ 255 128 10 (isBytes_mk 255 128 10 (by norm_num) (by norm_num) (by norm_num) al none) (by norm_num) (by norm_num [OffRed]) (by norm_num [OffRed, ends])
example (w : World) (al : Fl) : letI := Binary32.binary32
    ∃ q q', Complements w ⟨.rgbTrue, .rgbTrue, [fin (3 : ℕ), fin (77 : ℕ), fin (201 : ℕ)], al, 255, 0, none⟩ q ∧ Complements w q q' ∧ q'.comps = [fin (3 : ℕ), fin (77 : ℕ), fin (201 : ℕ)] :=
  letI := Binary32.binary32
  letI := Binary32.binary32_int
  letI := Binary32.binary32_small
  C163_involution_partial w _ 3 77 201 (isBytes_mk 3 77 201 (by norm_num) (by norm_num) (by norm_num) al none) (by norm_num) (by norm_num [OffRed]) (by norm_num [OffRed, ends])
example (w : World) (al : Fl) : letI := Binary32.binary32
    ∃ k1 k2 q1 q2 h', Combine.create_triplet (some 0) ⟨w, [⟨.rgbTrue, .rgbTrue, [fin (255 : ℕ), fin (128 : ℕ), fin (10 : ℕ)], al, 255, 0, none⟩]⟩ = (ok [some 0, k1, k2], h') ∧
      IsNew ⟨w, [⟨.rgbTrue, .rgbTrue, [fin (255 : ℕ), fin (128 : ℕ), fin (10 : ℕ)], al, 255, 0, none⟩]⟩ h' k1 q1 ∧
      IsNew ⟨w, [⟨.rgbTrue, .rgbTrue, [fin (255 : ℕ), fin (128 : ℕ), fin (10 : ℕ)], al, 255, 0, none⟩]⟩ h' k2 q2 ∧ IsBytes q1 10 255 128 ∧ IsBytes q2 128 10 255 :=
  letI := Binary32.binary32
  letI := Binary32.binary32_int
  letI := Binary32.binary32_small
  C163_triplet_partial _ 255 128 10 (isBytes_mk 255 128 10 (by norm_num) (by norm_num) (by norm_num) al none) (by norm_num) (by norm_num [OffRed]) (by norm_num [OffRed]) (by norm_num [OffRed]) _ 0 rfl
example (w : World) (al : Fl) : letI := Binary32.binary32
    ∃ q, Complements w ⟨.rgbTrue, .rgbTrue, [fin (255 : ℕ), fin (0 : ℕ), fin (1 : ℕ)], al, 255, 0, none⟩ q ∧ q.comps[2]? ≠ some (fin (254 : ℕ)) :=
  letI := Binary32.binary32
  letI := Binary32.binary32_int
  letI := Binary32.binary32_small
  C163_complement_violated w _ 255 0 1 (isBytes_mk 255 0 1 (by norm_num) (by norm_num) (by norm_num) al none) (.inl (by norm_num [InRed]))
example (w : World) (al : Fl) : letI := Binary32.binary32
    ∃ q, Complements w ⟨.rgbTrue, .rgbTrue, [fin (0 : ℕ), fin (255 : ℕ), fin (254 : ℕ)], al, 255, 0, none⟩ q ∧ q.comps[2]? ≠ some (fin (1 : ℕ)) :=
  letI := Binary32.binary32
  letI := Binary32.binary32_int
  letI := Binary32.binary32_small
  C163_complement_violated w _ 0 255 254 (isBytes_mk 0 255 254 (by norm_num) (by norm_num) (by norm_num) al none) (.inr (by norm_num [InRed, ends]))

end
