import Verif.Props.AdjustSingle
import Verif.Props.SingleAdjust

/-!
# C176: the HSL adjustments of 8-bit colours in single precision

The adjusted 8-bit channels are whole numbers next to the values of the formulas of C156 at `R / 255`, `G / 255` and `B / 255`.  No 8-bit colour other than black is nearly black, and no 8-bit colour other
than white has so little room for chroma that the error of C175 matters much; greys, black and white included, are treated apart.
-/

open Outcome Fl Prog ObjectSpec ConvSpec BlendSpec CombineSpec AdjustSpec Formula Hue
open FormulaSpec hiding luma

namespace AdjustSpec

/-- The blue channel, from 0 to 1, the code works with: hues in the last degree before 360 become 359, which replaces the blue of a red by one sixtieth of the way from green to red. -/
noncomputable def byteBlue (R G B : ℕ) : ℝ := if G < B ∧ G + 60 * (B - G) < R then (G / 255 : ℝ) + (R / 255 - G / 255) / 60 else B / 255

/-- Lightness of an 8-bit colour. -/
noncomputable def byteLight (R G B : ℕ) : ℝ := lightness (R / 255) (G / 255) (B / 255)

/-- Distance of the largest and the smallest channel. -/
noncomputable def byteChroma (R G B : ℕ) : ℝ := top (R / 255) (G / 255) (B / 255) - bot (R / 255) (G / 255) (B / 255)

end AdjustSpec

namespace AdjustByte

theorem gap_cast {R G B : ℕ} : (G < B ∧ G + 60 * (B - G) < R) ↔ (G / 255 : ℝ) < B / 255 ∧ 60 * ((B / 255 : ℝ) - G / 255) < R / 255 - G / 255 := by
  constructor
  · rintro ⟨h1, h2⟩
    have h2 : G + 60 * B < R + 60 * G := by omega
    have h1 : (G : ℝ) < B := by exact_mod_cast h1
    have h2 : ((G + 60 * B : ℕ) : ℝ) < ((R + 60 * G : ℕ) : ℝ) := by exact_mod_cast h2
    push_cast at h2
    constructor <;> linarith
  · rintro ⟨h1, h2⟩
    have h1 : (G : ℝ) < B := by linarith
    have h2 : ((G + 60 * B : ℕ) : ℝ) < ((R + 60 * G : ℕ) : ℝ) := by push_cast; linarith
    have h1 : G < B := by exact_mod_cast h1
    have h2 : G + 60 * B < R + 60 * G := by exact_mod_cast h2
    omega

theorem blue_close {R G B : ℕ} {r g b β e : ℝ} (he : e ≤ 1 / 100000) (hr : |r - R / 255| ≤ e) (hg : |g - G / 255| ≤ e) (hb : |b - B / 255| ≤ e) (hgb : B ≤ G → b ≤ g) (h : BlueOf r g b β) :
    |β - byteBlue R G B| ≤ e := by
  have hr := abs_le.mp hr
  have hg := abs_le.mp hg
  have hb' := abs_le.mp hb
  unfold byteBlue
  split_ifs with hgap
  · have hlt : (G : ℝ) + 1 ≤ B := by exact_mod_cast hgap.1
    obtain ⟨c1, c2⟩ := gap_cast.mp hgap
    rcases h with ⟨rfl, h⟩ | ⟨-, rfl⟩
    · have hn : ¬ 60 * (β - g) < r - g := fun hc => by
        have := h ⟨by linarith, hc⟩
        linarith
      rw [abs_le]; constructor <;> linarith
    · rw [abs_le]; constructor <;> linarith
  · rcases h with ⟨rfl, -⟩ | ⟨⟨d1, d2⟩, rfl⟩
    · exact hb
    · have hlt : G < B := by
        by_contra hc
        exact absurd (hgb (not_lt.mp hc)) (not_le.mpr d1)
      have c1 : (G / 255 : ℝ) < B / 255 := by
        have : (G : ℝ) < B := by exact_mod_cast hlt
        linarith
      have c2 : ¬ 60 * ((B / 255 : ℝ) - G / 255) < R / 255 - G / 255 := fun hc => hgap (gap_cast.mpr ⟨c1, hc⟩)
      rw [abs_le]; constructor <;> linarith

theorem blue_mid (R G B : ℕ) : |byteBlue R G B - byteLight R G B| ≤ byteChroma R G B / 2 := by
  obtain ⟨h1, h2, h3⟩ := from_mid (r := (R / 255 : ℝ)) (g := G / 255) (b := B / 255)
  unfold byteBlue byteLight byteChroma
  split_ifs
  · rw [abs_le] at *
    constructor <;> linarith
  · exact h3

theorem top_close {r g b r' g' b' e : ℝ} (hr : |r - r'| ≤ e) (hg : |g - g'| ≤ e) (hb : |b - b'| ≤ e) : |top r g b - top r' g' b'| ≤ e :=
  (abs_max_sub_max_le_max _ _ _ _).trans (max_le ((abs_max_sub_max_le_max _ _ _ _).trans (max_le hr hg)) hb)

theorem bot_close {r g b r' g' b' e : ℝ} (hr : |r - r'| ≤ e) (hg : |g - g'| ≤ e) (hb : |b - b'| ≤ e) : |bot r g b - bot r' g' b'| ≤ e :=
  (abs_min_sub_min_le_max _ _ _ _).trans (max_le ((abs_min_sub_min_le_max _ _ _ _).trans (max_le hr hg)) hb)

theorem light_close {r g b r' g' b' e : ℝ} (hr : |r - r'| ≤ e) (hg : |g - g'| ≤ e) (hb : |b - b'| ≤ e) : |lightness r g b - lightness r' g' b'| ≤ e := by
  have h1 := abs_le.mp (top_close hr hg hb)
  have h2 := abs_le.mp (bot_close hr hg hb)
  rw [show lightness r g b = (top r g b + bot r g b) / 2 from rfl, show lightness r' g' b' = (top r' g' b' + bot r' g' b') / 2 from rfl, abs_le]
  constructor <;> linarith

theorem chroma_close {r g b r' g' b' e : ℝ} (hr : |r - r'| ≤ e) (hg : |g - g'| ≤ e) (hb : |b - b'| ≤ e) : |(top r g b - bot r g b) - (top r' g' b' - bot r' g' b')| ≤ 2 * e := by
  have h1 := abs_le.mp (top_close hr hg hb)
  have h2 := abs_le.mp (bot_close hr hg hb)
  rw [abs_le]
  constructor <;> linarith

theorem room_close (x y : ℝ) : |room x - room y| ≤ 2 * |x - y| := by
  rw [room_min, room_min, ← mul_sub, abs_mul, abs_of_pos two_pos]
  linarith [lmin_lip x y]

/-- The formula of saturating hardly changes with the channels. -/
theorem sat_close {q y y' L L' δ δ' ρ ρ' e : ℝ} (q0 : 0 ≤ q) (e0 : 0 ≤ e) (hd : 0 < δ) (hd' : 0 < δ') (hL : |L - L'| ≤ e) (hy : |y - y'| ≤ e) (hδ : |δ - δ'| ≤ 2 * e) (hρ : |ρ - ρ'| ≤ 2 * e)
    (r0 : 0 ≤ ρ) (r0' : 0 ≤ ρ') (hm' : |y' - L'| ≤ δ' / 2) : |(L + min q (ρ / δ) * (y - L)) - (L' + min q (ρ' / δ') * (y' - L'))| ≤ 2 * e + 3 * (q * e) := by
  obtain ⟨k, hk⟩ : ∃ k, k = min q (ρ / δ) := ⟨_, rfl⟩
  obtain ⟨k', hk'⟩ : ∃ k', k' = min q (ρ' / δ') := ⟨_, rfl⟩
  rw [← hk, ← hk']
  have k0 : 0 ≤ k := hk ▸ le_min q0 (by positivity)
  have kq : k ≤ q := hk ▸ min_le_left _ _
  have hkd : k * δ = min (q * δ) ρ := by rw [hk, min_mul_of_nonneg _ _ hd.le, div_mul_cancel₀ _ hd.ne']
  have hkd' : k' * δ' = min (q * δ') ρ' := by rw [hk', min_mul_of_nonneg _ _ hd'.le, div_mul_cancel₀ _ hd'.ne']
  have hδ := abs_le.mp hδ
  have hρ := abs_le.mp hρ
  have hkk : |k * (δ' - δ)| ≤ q * (2 * e) := by
    rw [abs_mul, abs_of_nonneg k0]
    exact mul_le_mul kq (by rw [abs_le]; constructor <;> linarith) (abs_nonneg _) q0
  have hkk := abs_le.mp hkk
  have e1 : k * δ' = k * δ + k * (δ' - δ) := by ring
  have hdiff : |k * δ' - k' * δ'| ≤ 2 * e + 2 * (q * e) := by
    have qe : 0 ≤ q * e := mul_nonneg q0 e0
    have up : k * δ' ≤ k' * δ' + (2 * e + 2 * (q * e)) := by
      rw [hkd']
      have a1 : k * δ' ≤ q * δ' := by gcongr
      have a2 : k * δ ≤ ρ := hkd ▸ min_le_right _ _
      rcases min_choice (q * δ') ρ' with h | h <;> rw [h] <;> linarith
    have lo : k' * δ' ≤ k * δ' + (2 * e + 2 * (q * e)) := by
      have a1 : k' * δ' ≤ q * δ' := hkd' ▸ min_le_left _ _
      have a2 : k' * δ' ≤ ρ' := hkd' ▸ min_le_right _ _
      rcases min_choice q (ρ / δ) with h | h
      · rw [hk, h]; linarith
      · have : k * δ = ρ := by rw [hk, h, div_mul_cancel₀ _ hd.ne']
        linarith
    rw [abs_le]; constructor <;> linarith
  have h1 : |k * ((y - L) - (y' - L'))| ≤ q * (2 * e) := by
    rw [abs_mul, abs_of_nonneg k0]
    refine mul_le_mul kq ?_ (abs_nonneg _) q0
    have := abs_le.mp hL
    have := abs_le.mp hy
    rw [abs_le]; constructor <;> linarith
  have h2 : |(k - k') * (y' - L')| ≤ e + q * e := by
    rw [abs_mul]
    have a1 : |k - k'| * |y' - L'| ≤ |k - k'| * (δ' / 2) := by gcongr
    have a2 : |k - k'| * δ' = |k * δ' - k' * δ'| := by rw [← sub_mul, abs_mul, abs_of_pos hd']
    linarith
  have e2 : (L + k * (y - L)) - (L' + k' * (y' - L')) = (L - L') + k * ((y - L) - (y' - L')) + (k - k') * (y' - L') := by ring
  rw [e2]
  have h3 := abs_add_le ((L - L') + k * ((y - L) - (y' - L'))) ((k - k') * (y' - L'))
  have h4 := abs_add_le (L - L') (k * ((y - L) - (y' - L')))
  linarith

/-- The formula of luminating hardly changes with the channels. -/
theorem lum_close {q y y' L L' e : ℝ} (q0 : 0 ≤ q) (e0 : 0 ≤ e) (hr : 0 < room L) (hr' : 0 < room L') (hL : |L - L'| ≤ e) (hy : |y - y'| ≤ e)
    (hm : |y - L| ≤ room L / 2) (l0 : 0 ≤ L) : |(min (q * L) 1 + room (min (q * L) 1) / room L * (y - L)) - (min (q * L') 1 + room (min (q * L') 1) / room L' * (y' - L'))| ≤ 2 * (q * e) + 3 * e / room L' := by
  obtain ⟨m, em⟩ : ∃ m, m = min (q * L) 1 := ⟨_, rfl⟩
  obtain ⟨m', em'⟩ : ∃ m', m' = min (q * L') 1 := ⟨_, rfl⟩
  rw [← em, ← em']
  have l0' : 0 < L' := by
    rw [room_min] at hr'
    have := min_le_left L' (1 - L')
    linarith
  have hmm : |m - m'| ≤ q * e := by
    rw [em, em']
    refine (abs_min_sub_min_le_max _ _ _ _).trans (max_le ?_ (by simpa using mul_nonneg q0 e0))
    rw [← mul_sub, abs_mul, abs_of_nonneg q0]
    gcongr
  have m0' : 0 ≤ m' := em' ▸ le_min (mul_nonneg q0 l0'.le) zero_le_one
  have m1' : m' ≤ 1 := em' ▸ min_le_right _ _
  have rm' : 0 ≤ room m' ∧ room m' ≤ 1 := by
    rw [room_min]
    have := lmin_range m0' m1'
    constructor <;> linarith
  obtain ⟨t, et⟩ : ∃ t, t = (y - L) / room L := ⟨_, rfl⟩
  obtain ⟨t', et'⟩ : ∃ t', t' = (y' - L') / room L' := ⟨_, rfl⟩
  have ht : |t| ≤ 1 / 2 := by
    rw [et, abs_div, abs_of_pos hr, div_le_iff₀ hr]
    linarith
  have htt : |t - t'| ≤ 3 * e / room L' := by
    have e1 : t - t' = (((y - L) - (y' - L')) + t * (room L' - room L)) / room L' := by
      rw [et, et']
      field_simp
      ring
    rw [e1, abs_div, abs_of_pos hr']
    have a1 : |(y - L) - (y' - L')| ≤ 2 * e := by
      have := abs_le.mp hL
      have := abs_le.mp hy
      rw [abs_le]; constructor <;> linarith
    have a2 : |t * (room L' - room L)| ≤ 1 / 2 * (2 * e) := by
      rw [abs_mul]
      refine mul_le_mul ht ?_ (abs_nonneg _) (by norm_num)
      have := room_close L' L
      rw [abs_sub_comm L' L] at this
      linarith
    have a3 := abs_add_le ((y - L) - (y' - L')) (t * (room L' - room L))
    gcongr
    linarith
  have e2 : (m + room m / room L * (y - L)) - (m' + room m' / room L' * (y' - L')) = (m - m') + (room m - room m') * t + room m' * (t - t') := by
    rw [et, et']; ring
  have b1 : |(room m - room m') * t| ≤ (2 * (q * e)) * (1 / 2) := by
    rw [abs_mul]
    exact mul_le_mul ((room_close m m').trans (by linarith)) ht (abs_nonneg _) (by have := mul_nonneg q0 e0; linarith)
  have b2 : |room m' * (t - t')| ≤ 1 * (3 * e / room L') := by
    rw [abs_mul, abs_of_nonneg rm'.1]
    exact mul_le_mul rm'.2 htt (abs_nonneg _) zero_le_one
  rw [e2]
  have h3 := abs_add_le ((m - m') + (room m - room m') * t) (room m' * (t - t'))
  have h4 := abs_add_le (m - m') ((room m - room m') * t)
  linarith

theorem top_cast (R G B : ℕ) : top (R / 255) (G / 255) (B / 255) = ((max (max R G) B : ℕ) : ℝ) / 255 := by
  unfold top
  push_cast; rw [max_div_div_right (by norm_num), max_div_div_right (by norm_num)]

theorem bot_cast (R G B : ℕ) : bot (R / 255) (G / 255) (B / 255) = ((min (min R G) B : ℕ) : ℝ) / 255 := by
  unfold bot
  push_cast; rw [min_div_div_right (by norm_num), min_div_div_right (by norm_num)]

theorem chroma_cases (R G B : ℕ) : R = G ∧ G = B ∨ 1 / 255 ≤ byteChroma R G B := by
  unfold byteChroma
  rw [top_cast, bot_cast]
  by_cases h : R = G ∧ G = B
  · exact .inl h
  · right
    have : min (min R G) B + 1 ≤ max (max R G) B := by omega
    have : ((min (min R G) B : ℕ) : ℝ) + 1 ≤ (max (max R G) B : ℕ) := by exact_mod_cast this
    linarith

theorem light_range {R G B : ℕ} (hR : R ≤ 255) (hG : G ≤ 255) (hB : B ≤ 255) : 0 ≤ byteLight R G B ∧ byteLight R G B ≤ 1 ∧ byteChroma R G B ≤ room (byteLight R G B) := by
  have h1 : ((max (max R G) B : ℕ) : ℝ) ≤ 255 := by exact_mod_cast (by omega : max (max R G) B ≤ 255)
  have h2 : (0 : ℝ) ≤ (min (min R G) B : ℕ) := Nat.cast_nonneg _
  have h3 : ((min (min R G) B : ℕ) : ℝ) ≤ (max (max R G) B : ℕ) := by exact_mod_cast (by omega : min (min R G) B ≤ max (max R G) B)
  rw [byteLight, byteChroma, lightness, top_cast, bot_cast, room_min]
  refine ⟨by linarith, by linarith, ?_⟩
  rcases min_choice ((((max (max R G) B : ℕ) : ℝ) / 255 + ((min (min R G) B : ℕ) : ℝ) / 255) / 2) (1 - (((max (max R G) B : ℕ) : ℝ) / 255 + ((min (min R G) B : ℕ) : ℝ) / 255) / 2) with h | h <;>
    rw [h] <;> linarith

theorem light_cases {R G B : ℕ} (hR : R ≤ 255) (hG : G ≤ 255) (hB : B ≤ 255) (hbl : ¬ (R = 0 ∧ G = 0 ∧ B = 0)) (hw : ¬ (R = 255 ∧ G = 255 ∧ B = 255)) : 1 / 255 ≤ room (byteLight R G B) := by
  have h1 : max (max R G) B + min (min R G) B ≤ 509 := by omega
  have h2 : 1 ≤ max (max R G) B + min (min R G) B := by omega
  have h1 : ((max (max R G) B : ℕ) : ℝ) + (min (min R G) B : ℕ) ≤ 509 := by exact_mod_cast h1
  have h2 : 1 ≤ ((max (max R G) B : ℕ) : ℝ) + (min (min R G) B : ℕ) := by exact_mod_cast h2
  rw [byteLight, lightness, top_cast, bot_cast, room_min]
  rcases min_choice ((((max (max R G) B : ℕ) : ℝ) / 255 + ((min (min R G) B : ℕ) : ℝ) / 255) / 2) (1 - (((max (max R G) B : ℕ) : ℝ) / 255 + ((min (min R G) B : ℕ) : ℝ) / 255) / 2) with h | h <;>
    rw [h] <;> linarith

section
variable [FloatModel] [FineError]

omit [FloatModel] [FineError] in
theorem grey_light (R : ℕ) : byteLight R R R = R / 255 := by
  simp only [byteLight, lightness, top, bot, max_self, min_self]; ring

omit [FloatModel] [FineError] in
theorem grey_blue (R : ℕ) : byteBlue R R R = R / 255 := by
  rw [byteBlue, if_neg (by omega)]

/-- The deep colour of an 8-bit colour. -/
theorem deep {c : Color} {R G B : ℕ} (h : IsBytes c R G B) : ∃ d r g b, Leaf.rgb_true_to_rgb_deep c = ok d ∧ IsRgb d r g b ∧
    (fin r = Color.clamp (fin R / 255) 1 0 ∧ fin g = Color.clamp (fin G / 255) 1 0 ∧ fin b = Color.clamp (fin B / 255) 1 0) ∧
    (|r - R / 255| ≤ 12 / 10 ^ 8 ∧ |g - G / 255| ≤ 12 / 10 ^ 8 ∧ |b - B / 255| ≤ 12 / 10 ^ 8) := by
  obtain ⟨d, r, g, b, h1, h2, -, ⟨er, eg, eb⟩, -⟩ := TurnByte.deep h
  obtain ⟨r', er', -, nr⟩ := byte_unit h.red
  obtain ⟨g', eg', -, ng⟩ := byte_unit h.green
  obtain ⟨b', eb', -, nb⟩ := byte_unit h.blue
  obtain rfl : r = r' := by rw [er', fin.injEq] at er; exact er
  obtain rfl : g = g' := by rw [eg', fin.injEq] at eg; exact eg
  obtain rfl : b = b' := by rw [eb', fin.injEq] at eb; exact eb
  exact ⟨d, r, g, b, h1, h2, ⟨er, eg, eb⟩, nr, ng, nb⟩

/-- What the setter of RGB_TRUE stores of a deep colour. -/
theorem store {x y z : ℝ} (hx : 0 ≤ x ∧ x ≤ 1) (hy : 0 ≤ y ∧ y ≤ 1) (hz : 0 ≤ z ∧ z ≤ 1) (al : Fl) (sp : Option Nat) : ∃ q X Y Z, Leaf.rgb_deep_to_rgb_true (obj .rgbDeep x y z al sp) = ok q ∧ IsBytes q X Y Z ∧
    |(X : ℝ) - 255 * x| ≤ 1 / 2 + 1 / 20000 ∧ |(Y : ℝ) - 255 * y| ≤ 1 / 2 + 1 / 20000 ∧ |(Z : ℝ) - 255 * z| ≤ 1 / 2 + 1 / 20000 := by
  obtain ⟨q, e, hc⟩ := TurnByte.true_comps x y z al sp
  obtain ⟨X, X1, eX, nX⟩ := back hx
  obtain ⟨Y, Y1, eY, nY⟩ := back hy
  obtain ⟨Z, Z1, eZ, nZ⟩ := back hz
  rw [eX, eY, eZ] at hc
  have e' := e
  simp only [Leaf.rgb_deep_to_rgb_true, obj_0, obj_1, obj_2, ok_bind] at e'
  exact ⟨q, X, Y, Z, e, ⟨(Conv.construct_result (t := .rgbTrue) (by simp) rfl e').col, hc, X1, Y1, Z1⟩, nX, nY, nZ⟩

/-- The deep colour of an 8-bit colour other than black. -/
theorem deep_facts {R G B : ℕ} {d : Color} {r g b : ℝ} (hbl : ¬ (R = 0 ∧ G = 0 ∧ B = 0)) (h : IsRgb d r g b)
    (e : fin r = Color.clamp (fin R / 255) 1 0 ∧ fin g = Color.clamp (fin G / 255) 1 0 ∧ fin b = Color.clamp (fin B / 255) 1 0)
    (nr : |r - R / 255| ≤ 12 / 10 ^ 8) (ng : |g - G / 255| ≤ 12 / 10 ^ 8) (nb : |b - B / 255| ≤ 12 / 10 ^ 8) :
    1 / 1000 ≤ max (max r g) b ∧ (0 ≤ lightness r g b ∧ lightness r g b ≤ 1) ∧ (top r g b - bot r g b ≤ room (lightness r g b)) ∧
      (R = G ∧ G = B ∧ top r g b - bot r g b = 0 ∧ byteChroma R G B = 0 ∨ 1 / 300 ≤ top r g b - bot r g b ∧ 1 / 255 ≤ byteChroma R G B) ∧ grain r g b = 6 / 100000 := by
  obtain ⟨-, -, r0, r1, g0, g1, b0, b1⟩ := h
  have t1 := abs_le.mp (top_close nr ng nb)
  rw [top_cast] at t1
  have t2 : (1 : ℝ) ≤ (max (max R G) B : ℕ) := by exact_mod_cast (by omega : 1 ≤ max (max R G) B)
  have e1 : top r g b = max (max r g) b := rfl
  have hT : top r g b ≤ 1 := max_le (max_le r1 g1) b1
  have hB : 0 ≤ bot r g b := le_min (le_min r0 g0) b0
  have hBT : bot r g b ≤ top r g b := ((min_le_left _ _).trans (min_le_left _ _)).trans ((le_max_left r g).trans (le_max_left _ b))
  have hl : lightness r g b = (top r g b + bot r g b) / 2 := rfl
  have key : R = G ∧ G = B ∧ top r g b - bot r g b = 0 ∧ byteChroma R G B = 0 ∨ 1 / 300 ≤ top r g b - bot r g b ∧ 1 / 255 ≤ byteChroma R G B := by
    rcases chroma_cases R G B with ⟨rfl, rfl⟩ | hc
    · left
      obtain ⟨er, eg, eb⟩ := e
      obtain rfl : r = g := by rw [← eg, fin.injEq] at er; exact er
      obtain rfl : r = b := by rw [← eb, fin.injEq] at er; exact er
      exact ⟨rfl, rfl, by simp [top, bot], by simp [byteChroma, top, bot]⟩
    · right
      have n := abs_le.mp (chroma_close nr ng nb)
      refine ⟨?_, hc⟩
      change 1 / 255 ≤ top _ _ _ - bot _ _ _ at hc
      linarith
  refine ⟨by linarith, ⟨by linarith, by linarith⟩, ?_, key, ?_⟩
  · rw [room_min]
    rcases min_choice (lightness r g b) (1 - lightness r g b) with h | h <;> rw [h] <;> linarith
  · rw [grain, if_pos]
    rcases key with h | h
    · exact .inl h.2.2.1
    · exact .inr (by linarith [h.1])

omit [FloatModel] [FineError] in
theorem step {V : ℕ} {y t t' e a b : ℝ} (h1 : |(V : ℝ) - 255 * y| ≤ 1 / 2 + 1 / 20000) (h2 : |y - t| ≤ e) (h3 : |t - t'| ≤ a) (h4 : 255 * (e + a) + 1 / 20000 ≤ b) : |(V : ℝ) - 255 * t'| ≤ 1 / 2 + b := by
  rw [abs_le] at *
  constructor <;> linarith

/-- The HSL components of greys. -/
theorem grey_hsl {d : Color} {v : ℝ} (h : IsRgb d v v v) : Leaf.rgb_deep_to_hsl d = ok (obj .hsl 0 0 v d.malpha d.space) := by
  conv_lhs => rw [rgb_eq h]
  simp only [Leaf.rgb_deep_to_hsl, obj_0, obj_1, obj_2, obj_space, obj_malpha, obj_alpha _ _ _ _ _ _ (rfl : Color.scalesAlpha .rgbDeep = false), ok_bind, fmin_fin, fmax_fin, max_self, min_self, feq_fin, Color.construct_hsl, if_true]
  have cz : Color.clamp 0 1 0 = fin 0 := by simpa only [zero_def] using clamp01 (x := 0) le_rfl zero_le_one
  have hz : Color.clamp (Color.hueReduce 0) 359 0 = fin 0 := by
    simpa only [zero_def] using store_id (h := 0) le_rfl (by norm_num)
  simp only [Color.mkHue, hz, cz, clamp01 h.r0 h.r1, obj, Color.maxOf, Color.minOf]

open Classical in
/-- The RGB channels of colours without saturation. -/
theorem grey_back [IntExact] {l : ℝ} (l0 : 0 ≤ l) (l1 : l ≤ 1) : ∃ r g b, (∀ al sp, Leaf.hsl_to_rgb_deep (obj .hsl 0 0 l al sp) = ok (obj .rgbDeep r g b (if l = 0 then 0 else al) sp)) ∧
    (0 ≤ r ∧ r ≤ 1) ∧ (0 ≤ g ∧ g ≤ 1) ∧ (0 ≤ b ∧ b ≤ 1) ∧ |r - l| ≤ 6 / 100000 ∧ |g - l| ≤ 6 / 100000 ∧ |b - l| ≤ 6 / 100000 := by
  by_cases hl : l = 0
  · refine ⟨0, 0, 0, fun al sp => ?_, ?_⟩
    · rw [if_pos hl, hl]
      exact hsl_back_zero 0 0 al sp
    · rw [hl]; norm_num
  · have ch : ∀ n : ℝ, 0 ≤ n → n ≤ 8 → Near (Color.clamp (Leaf.hslToRgb (fin 0) (fin 0) (fin l) (fin n)) 1 0) l (6 / 100000) := by
      intro n n0 n1
      have := Hue.hsl_value (H := 0) (S := 0) (l := l) le_rfl (by norm_num) le_rfl zero_le_one l0 l1 n0 n1
      rw [zero_mul, zero_mul, sub_zero] at this
      exact this.clamp01 l0 l1
    obtain ⟨r', er, nr⟩ := ch 0 (by norm_num) (by norm_num)
    obtain ⟨g', eg, ng⟩ := ch 8 (by norm_num) (by norm_num)
    obtain ⟨b', eb, nb⟩ := ch 4 (by norm_num) (by norm_num)
    exact ⟨r', g', b', fun al sp => by rw [if_neg hl]; exact hsl_back hl er eg eb al sp, clamp_mem er, clamp_mem eg, clamp_mem eb, nr, ng, nb⟩

/-- Both adjustments of an 8-bit grey: saturating keeps the lightness, luminating changes it. -/
theorem grey_adjust [IntExact] {w : World} {c : Color} {R : ℕ} {p : ℝ} (h : IsBytes c R R R) (hp : p ≠ 0) (p0 : -1 ≤ p) (p1 : p ≤ 99) :
    (∃ q, Makes (fun q => Adjust.saturate_in_hsl_space q (fin p)) w c q ∧ IsBytes q R R R) ∧
    ∃ (q : Color) (R' G' B' : ℕ), Makes (fun q => Adjust.luminate_in_hsl_space q (fin p)) w c q ∧ IsBytes q R' G' B' ∧
      |(R' : ℝ) - 255 * min ((1 + p) * (R / 255)) 1| ≤ 1 / 2 + (4 + p) / 100 ∧ |(G' : ℝ) - 255 * min ((1 + p) * (R / 255)) 1| ≤ 1 / 2 + (4 + p) / 100 ∧
      |(B' : ℝ) - 255 * min ((1 + p) * (R / 255)) 1| ≤ 1 / 2 + (4 + p) / 100 := by
  obtain ⟨d, r, g, b, h1, h2, ⟨er, eg, eb⟩, nr, -, -⟩ := AdjustByte.deep h
  obtain rfl : r = g := by rw [← eg, fin.injEq] at er; exact er
  obtain rfl : r = b := by rw [← eb, fin.injEq] at er; exact er
  have e1 := grey_hsl h2
  have eto : Val.to .rgbTrue .hsl w c = ok (obj .hsl 0 0 r d.malpha d.space) := by
    show (Leaf.rgb_true_to_rgb_deep c >>= Leaf.rgb_deep_to_hsl) = _
    rw [h1, ok_bind, e1]
  obtain ⟨k1, k2⟩ := hsl_steps (s := .rgbTrue) (h.base w) (by simp) hp eto
  have q0 : 0 ≤ 1 + p := by linarith
  constructor
  · obtain ⟨y, ey, -⟩ := ((near_fin 1).add (near_fin p) (1 + p) (by rw [abs_of_nonneg q0]) (by linarith))
    have eS : fmax (fmin (fin 0 * (1 + fin p)) 1) 0 = fin 0 := by
      rw [one_def, ey, fin_mul, zero_mul, FloatModel.rnd_zero, fmin_fin, zero_def, fmax_fin]
      norm_num
    obtain ⟨x, y, z, eB, lx, ly, lz, nx, ny, nz⟩ := grey_back h2.r0 h2.r1
    obtain ⟨q, X, Y, Z, eq, hq, -⟩ := store lx ly lz (if r = 0 then 0 else d.malpha) d.space
    refine ⟨q, k1 0 q eS ?_, ?_⟩
    · show (Leaf.hsl_to_rgb_deep _ >>= Leaf.rgb_deep_to_rgb_true) = _
      rw [eB, ok_bind, eq]
    · obtain ⟨q', e', hc⟩ := TurnByte.true_comps x y z (if r = 0 then 0 else d.malpha) d.space
      rw [eq, ok_inj] at e'
      subst e'
      have n : ∀ t : ℝ, |t - r| ≤ 6 / 100000 → |t - (R : ℝ) / 255| ≤ 19 / 10000 := fun t ht => by
        have := abs_sub_le t r (R / 255)
        linarith
      rw [TurnByte.stored h.red (n x nx), TurnByte.stored h.red (n y ny), TurnByte.stored h.red (n z nz)] at hc
      exact ⟨hq.col, hc, h.red, h.red, h.red⟩
  · obtain ⟨l', el, nl'⟩ := scale_near (p := p) h2.r0 h2.r1 p0 p1
    have l'01 : 0 ≤ l' ∧ l' ≤ 1 := by
      have := Color.clamp_inRange (fin r * (1 + fin p)) (mx := 1) (mn := 0) (by norm_num)
      simp only [one_def, zero_def, Color.clamp] at this el
      rw [el] at this; simpa using this
    obtain ⟨x, y, z, eB, lx, ly, lz, nx, ny, nz⟩ := grey_back l'01.1 l'01.2
    obtain ⟨q, X, Y, Z, eq, hq, m1, m2, m3⟩ := store lx ly lz (if l' = 0 then 0 else d.malpha) d.space
    have nm : |l' - min ((1 + p) * (R / 255)) 1| ≤ (4 * (1 + p) + 3) / 1000000 := by
      have k : |min (r * (1 + p)) 1 - min ((1 + p) * (R / 255)) 1| ≤ (1 + p) * (1 / 1000000) := by
        refine (abs_min_sub_min_le_max _ _ _ _).trans (max_le ?_ ?_)
        · rw [show r * (1 + p) - (1 + p) * (R / 255) = (1 + p) * (r - R / 255) by ring, abs_mul, abs_of_nonneg q0]
          exact mul_le_mul_of_nonneg_left (by linarith) q0
        · rw [sub_self, abs_zero]; positivity
      have := abs_sub_le l' (min (r * (1 + p)) 1) (min ((1 + p) * (R / 255)) 1)
      linarith
    refine ⟨q, X, Y, Z, k2 l' q el ?_, hq, ?_⟩
    · show (Leaf.hsl_to_rgb_deep _ >>= Leaf.rgb_deep_to_rgb_true) = _
      rw [eB, ok_bind, eq]
    · have fin' : 255 * (6 / 100000 + (4 * (1 + p) + 3) / 1000000) + 1 / 20000 ≤ (4 + p) / 100 := by linarith
      exact ⟨step m1 nx nm fin', step m2 ny nm fin', step m3 nz nm fin'⟩

omit [FloatModel] [FineError] in
theorem blue_deep {r g b β : ℝ} (h : BlueOf r g b β) : |β - lightness r g b| ≤ (top r g b - bot r g b) / 2 := by
  obtain ⟨h1, h2, h3⟩ := from_mid (r := r) (g := g) (b := b)
  rcases h with ⟨rfl, -⟩ | ⟨-, rfl⟩
  · exact h3
  · rw [abs_le] at *
    constructor <;> linarith

end

end AdjustByte

section
variable [FloatModel] [IntExact] [FineError]

/-- **C176** Saturating an 8-bit colour in HSL: the channels are whole numbers, and differ from those of C156 by half a step and (5 + 2p)/100. -/
theorem C176_saturate (w : World) (c : Color) (R G B : ℕ) (p : ℝ) (h : IsBytes c R G B) (hp : p ≠ 0) (p0 : -1 ≤ p) (p1 : p ≤ 99) :
    ∃ (q : Color) (R' G' B' : ℕ) (k : ℝ), Makes (fun q => Adjust.saturate_in_hsl_space q (fin p)) w c q ∧ IsBytes q R' G' B' ∧ k = min (1 + p) (room (byteLight R G B) / byteChroma R G B) ∧
      |(R' : ℝ) - 255 * (byteLight R G B + k * (R / 255 - byteLight R G B))| ≤ 1 / 2 + (5 + 2 * p) / 100 ∧
      |(G' : ℝ) - 255 * (byteLight R G B + k * (G / 255 - byteLight R G B))| ≤ 1 / 2 + (5 + 2 * p) / 100 ∧
      |(B' : ℝ) - 255 * (byteLight R G B + k * (byteBlue R G B - byteLight R G B))| ≤ 1 / 2 + (5 + 2 * p) / 100 := by
  by_cases hgrey : R = G ∧ G = B
  · obtain ⟨rfl, rfl⟩ := hgrey
    obtain ⟨⟨q, mk, hq⟩, -⟩ := AdjustByte.grey_adjust (w := w) h hp p0 p1
    have e : (R : ℝ) - 255 * (R / 255) = 0 := by ring
    refine ⟨q, R, R, R, _, mk, hq, rfl, ?_⟩
    rw [AdjustByte.grey_light, AdjustByte.grey_blue, sub_self, mul_zero, add_zero, e, abs_zero]
    exact ⟨by linarith, by linarith, by linarith⟩
  have hbl : ¬ (R = 0 ∧ G = 0 ∧ B = 0) := by omega
  obtain ⟨d, r, g, b, h1, h2, ⟨er, eg, eb⟩, nr, ng, nb⟩ := AdjustByte.deep h
  obtain ⟨hbl', ⟨l0, l1⟩, hch', hcase, hgr⟩ := AdjustByte.deep_facts hbl h2 ⟨er, eg, eb⟩ nr ng nb
  obtain ⟨H, S, l, S', β, r', g', b', k, e1, eS, eB, hβ, lr, lg, lb, hk, n1, n2, n3⟩ := saturated_deep h2 hbl' p0 p1
  obtain ⟨q, R', G', B', eq, hq, m1, m2, m3⟩ := AdjustByte.store lr lg lb d.malpha d.space
  have mk : Makes (fun q => Adjust.saturate_in_hsl_space q (fin p)) w c q := by
    refine (hsl_steps (s := .rgbTrue) (h.base w) (by simp) hp (H := H) (S := S) (l := l) (al := d.malpha) (sp := d.space) ?_).1 S' q eS ?_
    · show (Leaf.rgb_true_to_rgb_deep c >>= Leaf.rgb_deep_to_hsl) = _
      rw [h1, ok_bind, e1]
    · show (Leaf.hsl_to_rgb_deep _ >>= Leaf.rgb_deep_to_rgb_true) = _
      rw [eB, ok_bind, eq]
  have nβ := AdjustByte.blue_close (by norm_num) nr ng nb (fun hc => byte_mono hc eb eg) hβ
  have nL := AdjustByte.light_close nr ng nb
  have nδ := AdjustByte.chroma_close nr ng nb
  have nρ : |room (lightness r g b) - room (byteLight R G B)| ≤ 2 * (12 / 10 ^ 8) := (AdjustByte.room_close _ _).trans (by gcongr; exact nL)
  obtain ⟨L0, L1, hch⟩ := AdjustByte.light_range h.red h.green h.blue
  obtain ⟨f1, f2, -⟩ := from_mid (r := (R / 255 : ℝ)) (g := G / 255) (b := B / 255)
  refine ⟨q, R', G', B', _, mk, hq, rfl, ?_⟩
  have close : ∀ y y' : ℝ, |y - y'| ≤ 12 / 10 ^ 8 → |y' - byteLight R G B| ≤ byteChroma R G B / 2 → |y - lightness r g b| ≤ (top r g b - bot r g b) / 2 →
      |(lightness r g b + k * (y - lightness r g b)) - (byteLight R G B + min (1 + p) (room (byteLight R G B) / byteChroma R G B) * (y' - byteLight R G B))| ≤ 2 * (12 / 10 ^ 8) + 3 * ((1 + p) * (12 / 10 ^ 8)) := by
    intro y y' hy hm' hm
    rcases hcase with ⟨-, -, z1, z2⟩ | ⟨z1, z2⟩
    · rw [z1, zero_div, abs_nonpos_iff] at hm
      rw [z2, zero_div, abs_nonpos_iff] at hm'
      rw [hm, hm', mul_zero, mul_zero, add_zero, add_zero]
      have := mul_nonneg (by linarith : 0 ≤ 1 + p) (by norm_num : (0 : ℝ) ≤ 12 / 10 ^ 8)
      change |_ - lightness _ _ _| ≤ _
      linarith
    · rw [hk]
      exact AdjustByte.sat_close (by linarith) (by norm_num) (by linarith) (by linarith) nL hy nδ nρ (by linarith) (by linarith) hm'
  rw [hgr] at n1 n2 n3
  obtain ⟨d1, d2, d3⟩ := from_mid (r := r) (g := g) (b := b)
  refine ⟨AdjustByte.step m1 n1 (close _ _ nr f1 d1) ?_, AdjustByte.step m2 n2 (close _ _ ng f2 d2) ?_, AdjustByte.step m3 n3 (close _ _ nβ (AdjustByte.blue_mid R G B) (AdjustByte.blue_deep hβ)) ?_⟩ <;>
    (norm_num; linarith)

/-- **C176** Luminating an 8-bit colour in HSL: the channels are whole numbers, and differ from those of C156 by half a step and a bit that grows like the reciprocal of the room for chroma. -/
theorem C176_luminate (w : World) (c : Color) (R G B : ℕ) (p : ℝ) (h : IsBytes c R G B) (hp : p ≠ 0) (p0 : -1 ≤ p) (p1 : p ≤ 99) :
    ∃ (q : Color) (R' G' B' : ℕ) (m k : ℝ), Makes (fun q => Adjust.luminate_in_hsl_space q (fin p)) w c q ∧ IsBytes q R' G' B' ∧ m = min ((1 + p) * byteLight R G B) 1 ∧
      k = room m / room (byteLight R G B) ∧
      |(R' : ℝ) - 255 * (m + k * (R / 255 - byteLight R G B))| ≤ 1 / 2 + (3 + (1 + p)) / 100 + 16 / 1000 / room (byteLight R G B) ∧
      |(G' : ℝ) - 255 * (m + k * (G / 255 - byteLight R G B))| ≤ 1 / 2 + (3 + (1 + p)) / 100 + 16 / 1000 / room (byteLight R G B) ∧
      |(B' : ℝ) - 255 * (m + k * (byteBlue R G B - byteLight R G B))| ≤ 1 / 2 + (3 + (1 + p)) / 100 + 16 / 1000 / room (byteLight R G B) := by
  by_cases hgrey : R = G ∧ G = B
  · obtain ⟨rfl, rfl⟩ := hgrey
    obtain ⟨-, q, R', G', B', mk, hq, n1, n2, n3⟩ := AdjustByte.grey_adjust (w := w) h hp p0 p1
    refine ⟨q, R', G', B', _, _, mk, hq, rfl, rfl, ?_⟩
    have hrm : 0 ≤ room (byteLight R R R) := by
      have := AdjustByte.light_range h.red h.green h.blue
      have e0 : byteChroma R R R = 0 := by simp [byteChroma, top, bot]
      linarith
    have e1 : 0 ≤ 16 / 1000 / room (byteLight R R R) := div_nonneg (by norm_num) hrm
    generalize 16 / 1000 / room (byteLight R R R) = x at *
    rw [AdjustByte.grey_light, AdjustByte.grey_blue, sub_self, mul_zero, add_zero]
    exact ⟨by linarith, by linarith, by linarith⟩
  have hbl : ¬ (R = 0 ∧ G = 0 ∧ B = 0) := by omega
  have hw : ¬ (R = 255 ∧ G = 255 ∧ B = 255) := by omega
  obtain ⟨d, r, g, b, h1, h2, ⟨er, eg, eb⟩, nr, ng, nb⟩ := AdjustByte.deep h
  obtain ⟨hbl', ⟨l0, l1⟩, hch', hcase, hgr⟩ := AdjustByte.deep_facts hbl h2 ⟨er, eg, eb⟩ nr ng nb
  obtain ⟨L0, L1, hch⟩ := AdjustByte.light_range h.red h.green h.blue
  have nL : |lightness r g b - byteLight R G B| ≤ 12 / 10 ^ 8 := AdjustByte.light_close nr ng nb
  have nρ : |room (lightness r g b) - room (byteLight R G B)| ≤ 2 * (12 / 10 ^ 8) := (AdjustByte.room_close _ _).trans (by gcongr)
  have hR := AdjustByte.light_cases h.red h.green h.blue hbl hw
  have nρ' := abs_le.mp nρ
  have hr : 0 < room (lightness r g b) := by linarith
  have q0 : 0 ≤ 1 + p := by linarith
  obtain ⟨H, S, l, l', β, r', g', b', m, k, e1, el, eB, -, hβ, lr, lg, lb, hm, hk, n1, n2, n3⟩ := luminated_deep h2 hbl' p0 p1 hr
  obtain ⟨q, R', G', B', eq, hq, m1, m2, m3⟩ := AdjustByte.store lr lg lb (if l' = 0 then 0 else d.malpha) d.space
  have mk : Makes (fun q => Adjust.luminate_in_hsl_space q (fin p)) w c q := by
    refine (hsl_steps (s := .rgbTrue) (h.base w) (by simp) hp (H := H) (S := S) (l := l) (al := d.malpha) (sp := d.space) ?_).2 l' q el ?_
    · show (Leaf.rgb_true_to_rgb_deep c >>= Leaf.rgb_deep_to_hsl) = _
      rw [h1, ok_bind, e1]
    · show (Leaf.hsl_to_rgb_deep _ >>= Leaf.rgb_deep_to_rgb_true) = _
      rw [eB, ok_bind, eq]
  have nβ := AdjustByte.blue_close (by norm_num) nr ng nb (fun hc => byte_mono hc eb eg) hβ
  refine ⟨q, R', G', B', _, _, mk, hq, rfl, rfl, ?_⟩
  have close : ∀ y y' : ℝ, |y - y'| ≤ 12 / 10 ^ 8 → |y - lightness r g b| ≤ (top r g b - bot r g b) / 2 →
      |(m + k * (y - lightness r g b)) - (min ((1 + p) * byteLight R G B) 1 + room (min ((1 + p) * byteLight R G B) 1) / room (byteLight R G B) * (y' - byteLight R G B))| ≤
        2 * ((1 + p) * (12 / 10 ^ 8)) + 3 * (12 / 10 ^ 8) / room (byteLight R G B) := by
    intro y y' hy hm'
    rw [hk, hm]
    exact AdjustByte.lum_close q0 (by norm_num) hr (by linarith) nL hy (by linarith) l0
  have hdiv : 6 / 100000 / room (lightness r g b) ≤ 601 / 10000000 / room (byteLight R G B) := by
    rw [div_le_div_iff₀ hr (by linarith)]
    linarith
  obtain ⟨x, hx⟩ : ∃ x, x = 1 / room (byteLight R G B) := ⟨_, rfl⟩
  have x0 : 0 ≤ x := by rw [hx]; exact div_nonneg zero_le_one (by linarith)
  have d0 : ∀ t : ℝ, t / room (byteLight R G B) = t * x := fun t => by rw [hx]; ring
  rw [hgr] at n1 n2 n3
  simp only [d0] at hdiv close ⊢
  obtain ⟨d1, d2, d3⟩ := from_mid (r := r) (g := g) (b := b)
  have fin' : 255 * ((1 / 10000 + (1 + p) * (2 / 100000) + 6 / 100000 / room (lightness r g b)) + (2 * ((1 + p) * (12 / 10 ^ 8)) + 3 * (12 / 10 ^ 8) * x)) + 1 / 20000 ≤ (3 + (1 + p)) / 100 + 16 / 1000 * x := by
    linarith
  rw [add_assoc (1 / 2 : ℝ)]
  refine ⟨AdjustByte.step m1 n1 (close _ _ nr d1) fin', AdjustByte.step m2 n2 (close _ _ ng d2) fin', AdjustByte.step m3 n3 (close _ _ nβ (AdjustByte.blue_deep hβ)) fin'⟩

/-- **C176** Saturating an 8-bit grey, black and white included, keeps its channels. -/
theorem C176_grey (w : World) (c : Color) (R : ℕ) (p : ℝ) (h : IsBytes c R R R) (hp : p ≠ 0) (p0 : -1 ≤ p) (p1 : p ≤ 99) :
    ∃ q, Makes (fun q => Adjust.saturate_in_hsl_space q (fin p)) w c q ∧ IsBytes q R R R :=
  (AdjustByte.grey_adjust h hp p0 p1).1

end

/-- The 8-bit brown 200, 120, 40 in binary32: a quarter more saturation gives 220, 120, 20, and half the lightness 100, 60, 20. -/
example (w : World) (al : Fl) (sp : Option Nat) : letI := Binary32.binary32
    ∃ c, IsBytes c 200 120 40 ∧ (∃ q, Makes (fun q => Adjust.saturate_in_hsl_space q (fin (1 / 4))) w c q ∧ IsBytes q 220 120 20) ∧
      ∃ q, Makes (fun q => Adjust.luminate_in_hsl_space q (fin (-(1 / 2)))) w c q ∧ IsBytes q 100 60 20 := by
  letI := Binary32.binary32
  haveI := Binary32.binary32_fine
  haveI := Binary32.binary32_int
  have h := isBytes_mk 200 120 40 (by norm_num) (by norm_num) (by norm_num) al sp
  have m1 : top ((200 : ℕ) / 255) ((120 : ℕ) / 255) ((40 : ℕ) / 255) = 200 / 255 := by norm_num [top]
  have m2 : bot ((200 : ℕ) / 255) ((120 : ℕ) / 255) ((40 : ℕ) / 255) = 40 / 255 := by norm_num [bot]
  have hl : byteLight 200 120 40 = 8 / 17 := by rw [byteLight, lightness, m1, m2]; norm_num
  have hc : byteChroma 200 120 40 = 160 / 255 := by rw [byteChroma, m1, m2]; norm_num
  have hb : byteBlue 200 120 40 = 40 / 255 := by rw [byteBlue, if_neg (by omega)]; norm_num
  have rl : room (8 / 17) = 16 / 17 := by rw [room, abs_of_neg (by norm_num)]; norm_num
  have near : ∀ {a N : ℕ} {t e : ℝ}, |(a : ℝ) - t| ≤ e → t = N → e ≤ 3 / 4 → a = N := fun {a N t e} h ht he => by
    rw [ht] at h
    have h := abs_le.mp (h.trans he)
    have h1 : (a : ℝ) < (N + 1 : ℕ) := by push_cast; linarith
    have h2 : (N : ℝ) < (a + 1 : ℕ) := by push_cast; linarith
    have h1 := Nat.cast_lt.mp h1
    have h2 := Nat.cast_lt.mp h2
    omega
  refine ⟨_, h, ?_, ?_⟩
  · obtain ⟨q, R, G, B, k, mk, hq, hk, n1, n2, n3⟩ := C176_saturate w _ _ _ _ (1 / 4) h (by norm_num) (by norm_num) (by norm_num)
    rw [hl, rl, hc, min_eq_left (by norm_num)] at hk
    rw [hl, hk] at n1 n2 n3
    rw [hb] at n3
    obtain rfl := near (N := 220) n1 (by norm_num) (by norm_num)
    obtain rfl := near (N := 120) n2 (by norm_num) (by norm_num)
    obtain rfl := near (N := 20) n3 (by norm_num) (by norm_num)
    exact ⟨q, mk, hq⟩
  · obtain ⟨q, R, G, B, m, k, mk, hq, hm, hk, n1, n2, n3⟩ := C176_luminate w _ _ _ _ (-(1 / 2)) h (by norm_num) (by norm_num) (by norm_num)
    rw [hl, min_eq_left (by norm_num)] at hm
    have rm : room m = 8 / 17 := by rw [hm, room, abs_of_neg (by norm_num)]; norm_num
    rw [hl, rm, rl] at hk
    rw [hl, rl, hk, hm] at n1 n2 n3
    rw [hb] at n3
    obtain rfl := near (N := 100) n1 (by norm_num) (by norm_num)
    obtain rfl := near (N := 60) n2 (by norm_num) (by norm_num)
    obtain rfl := near (N := 20) n3 (by norm_num) (by norm_num)
    exact ⟨q, mk, hq⟩

/-- A grey keeps its channels. -/
example (w : World) (al : Fl) (sp : Option Nat) : letI := Binary32.binary32
    ∃ c q, IsBytes c 77 77 77 ∧ Makes (fun q => Adjust.saturate_in_hsl_space q (fin 5)) w c q ∧ IsBytes q 77 77 77 := by
  letI := Binary32.binary32
  haveI := Binary32.binary32_fine
  haveI := Binary32.binary32_int
  have h := isBytes_mk 77 77 77 (by norm_num) (by norm_num) (by norm_num) al sp
  obtain ⟨q, mk, hq⟩ := C176_grey w _ 77 5 h (by norm_num) (by norm_num) (by norm_num)
  exact ⟨_, q, h, mk, hq⟩
