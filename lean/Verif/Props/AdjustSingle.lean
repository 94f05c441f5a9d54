import Verif.Binary32
import Verif.HslNear
import Verif.Props.AdjustForms

/-!
# C175: the HSL adjustments of RGB colours in single precision

C156 gives the adjusted channels in exact arithmetic.  Here the error of the computed channels is bounded for every arithmetic with small rounding errors and exact small integers;
`Binary32.binary32` is one.  Saturating stays accurate for all colours.  Luminating loses all accuracy near white, where the saturation is a quotient of two very small numbers.
-/

open Outcome Fl Prog ObjectSpec ConvSpec BlendSpec CombineSpec AdjustSpec Formula Hue
open FormulaSpec hiding luma

namespace AdjustSpec

open Classical in
/-- Unit of the error: smaller if the largest and the smallest channel are equal or apart. -/
noncomputable def grain (r g b : ℝ) : ℝ := if top r g b - bot r g b = 0 ∨ 1 / 10000 ≤ top r g b - bot r g b then 6 / 100000 else 4 / 10000

/-- `β` is the blue the code works with: hues in the last degree before 360 become 359, which replaces the blue of a red by one sixtieth of the way from green to red.  If the blue is hardly above the green,
rounding may put the hue at 0 instead. -/
def BlueOf (r g b β : ℝ) : Prop :=
  β = b ∧ (g < b ∧ 60 * (b - g) < r - g → b - g ≤ 1 / 10000) ∨ (g < b ∧ 60 * (b - g) < r - g) ∧ β = g + (r - g) / 60

end AdjustSpec

section
variable [FloatModel]

/-- The adjustments of a colour in terms of the conversions. -/
theorem hsl_steps {s : ColorType} {w : World} {c : Color} (hb : Base w s c) (hs : s ≠ .hsl) {H S l p : ℝ} {al : Fl} {sp : Option Nat} (hp : p ≠ 0) (e : Val.to s .hsl w c = ok (obj .hsl H S l al sp)) :
    (∀ (S' : ℝ) (v : Color), fmax (fmin (fin S * (1 + fin p)) 1) 0 = fin S' → Val.to .hsl s w (obj .hsl H S' l al sp) = ok v → Makes (fun q => Adjust.saturate_in_hsl_space q (fin p)) w c v) ∧
    ∀ (l' : ℝ) (v : Color), fmax (fmin (fin l * (1 + fin p)) 1) 0 = fin l' → Val.to .hsl s w (obj .hsl H S l' al sp) = ok v → Makes (fun q => Adjust.luminate_in_hsl_space q (fin p)) w c v := by
  have hp : ¬ feq (fin p) 0 := by simpa using hp
  have hcol : ∀ x y z : ℝ, IsColor .hsl (obj .hsl x y z al sp) := fun _ _ _ => ⟨rfl, rfl, rfl, rfl, rfl⟩
  have key : ∀ f, InHsl f → ∃ m v, Scaled f (fin p) (fin H) (fin S) (fin l) m ∧ Converts w { obj .hsl H S l al sp with comps := m } s v ∧ Makes (fun q => f q (fin p)) w c v := by
    intro f hf
    obtain ⟨d, x, y, z, m, v, h1, h2, h3, h4, hm, -⟩ := hsl_makes hb hs hf hp
    have h1 := (converts_iff hb.defined (by simp) hb.col).mp h1
    rw [e, ok_inj] at h1
    subst h1
    simp only [obj, List.cons.injEq, and_true] at h2
    obtain ⟨rfl, rfl, rfl⟩ := h2
    exact ⟨m, v, h3, h4, hm⟩
  have back : ∀ (x y z : ℝ) (v v' : Color), Converts w (obj .hsl x y z al sp) s v → Val.to .hsl s w (obj .hsl x y z al sp) = ok v' → v = v' := by
    intro x y z v v' hv e
    rw [(converts_iff (s := .hsl) (by simp) hb.defined (hcol x y z)).mp hv, ok_inj] at e
    exact e
  constructor
  · intro S' v' e1 e2
    obtain ⟨m, v, hl, hc, hm⟩ := key _ (Or.inl rfl)
    rcases hl with ⟨-, rfl⟩ | ⟨hne, -⟩
    · rw [e1] at hc
      rwa [back _ _ _ _ _ hc e2] at hm
    · exact absurd hne (sat_ne_lum w)
  · intro l' v' e1 e2
    obtain ⟨m, v, hl, hc, hm⟩ := key _ (Or.inr rfl)
    rcases hl with ⟨hne, -⟩ | ⟨-, rfl⟩
    · exact absurd hne.symm (sat_ne_lum w)
    · rw [e1] at hc
      rwa [back _ _ _ _ _ hc e2] at hm

/-- The adjustments of an RGB colour. -/
theorem rgb_steps {w : World} {c : Color} {r g b : ℝ} (h : IsRgb c r g b) {H S l p : ℝ} (hp : p ≠ 0) (e : Leaf.rgb_deep_to_hsl c = ok (obj .hsl H S l c.malpha c.space)) :
    (∀ S' r' g' b' : ℝ, fmax (fmin (fin S * (1 + fin p)) 1) 0 = fin S' → (∀ al sp, Leaf.hsl_to_rgb_deep (obj .hsl H S' l al sp) = ok (obj .rgbDeep r' g' b' al sp)) →
      Makes (fun q => Adjust.saturate_in_hsl_space q (fin p)) w c { c with comps := [fin r', fin g', fin b'] }) ∧
    ∀ l' r' g' b' : ℝ, fmax (fmin (fin l * (1 + fin p)) 1) 0 = fin l' → (∀ al sp, Leaf.hsl_to_rgb_deep (obj .hsl H S l' al sp) = ok (obj .rgbDeep r' g' b' al sp)) →
      Makes (fun q => Adjust.luminate_in_hsl_space q (fin p)) w c { c with comps := [fin r', fin g', fin b'] } := by
  obtain ⟨k1, k2⟩ := hsl_steps (s := .rgbDeep) (w := w) ⟨by simp, by simp, h.col, by simp [Cie]⟩ (by simp) hp e
  constructor
  · intro S' r' g' b' e1 e2
    rw [← obj_rgb h]
    exact k1 S' _ e1 (e2 _ _)
  · intro l' r' g' b' e1 e2
    rw [← obj_rgb h]
    exact k2 l' _ e1 (e2 _ _)

omit [FloatModel] in
theorem room_min (l : ℝ) : room l = 2 * min l (1 - l) := by
  unfold room
  rcases le_total l (1 / 2) with h | h
  · rw [abs_of_nonpos (by linarith), min_eq_left (by linarith)]; ring
  · rw [abs_of_nonneg (by linarith), min_eq_right (by linarith)]; ring

omit [FloatModel] in
theorem grain_of {r g b a e : ℝ} (h : Grain (top r g b - bot r g b) a e) : a + e + 5 / 1000000 ≤ grain r g b := by
  unfold grain
  split_ifs with hd
  · linarith [h.tight hd]
  · linarith [h.loose]

omit [FloatModel] in
theorem between {y L δ k m : ℝ} (hy : |y - L| ≤ δ / 2) (hk : 0 ≤ k) (hm : k * (δ / 2) ≤ min m (1 - m)) : 0 ≤ m + k * (y - L) ∧ m + k * (y - L) ≤ 1 := by
  have h1 : k * |y - L| ≤ k * (δ / 2) := by gcongr
  have h2 : |k * (y - L)| ≤ min m (1 - m) := by rw [abs_mul, abs_of_nonneg hk]; linarith
  have h3 := min_le_left m (1 - m)
  have h4 := min_le_right m (1 - m)
  rw [abs_le] at h2
  constructor <;> linarith

omit [FloatModel] in
theorem from_mid {r g b : ℝ} : |r - lightness r g b| ≤ (top r g b - bot r g b) / 2 ∧ |g - lightness r g b| ≤ (top r g b - bot r g b) / 2 ∧ |b - lightness r g b| ≤ (top r g b - bot r g b) / 2 := by
  have hr1 : bot r g b ≤ r := (min_le_left _ _).trans (min_le_left _ _)
  have hg1 : bot r g b ≤ g := (min_le_left _ _).trans (min_le_right _ _)
  have hb1 : bot r g b ≤ b := min_le_right _ _
  have hr2 : r ≤ top r g b := (le_max_left _ _).trans (le_max_left _ _)
  have hg2 : g ≤ top r g b := (le_max_right _ _).trans (le_max_left _ _)
  have hb2 : b ≤ top r g b := le_max_right _ _
  have hl : lightness r g b = (top r g b + bot r g b) / 2 := rfl
  simp only [hl, abs_le]
  refine ⟨⟨?_, ?_⟩, ⟨?_, ?_⟩, ?_, ?_⟩ <;> linarith

omit [FloatModel] in
theorem blue_of {r g b β L d : ℝ} (h : β = b ∧ (HueGap r g b → b - g ≤ 1 / 10000) ∨ HueGap r g b ∧ β = gapBlue r g b) (hr : |r - L| ≤ d) (hg : |g - L| ≤ d) (hb : |b - L| ≤ d) :
    BlueOf r g b β ∧ |β - L| ≤ d := by
  rcases h with ⟨rfl, h⟩ | ⟨h, rfl⟩
  · exact ⟨.inl ⟨rfl, h⟩, hb⟩
  · rw [gapBlue, if_pos h]
    refine ⟨.inr ⟨h, rfl⟩, ?_⟩
    rw [abs_le] at *
    constructor <;> linarith

end

section
variable [FloatModel] [IntExact] [SmallError]

omit [IntExact] [SmallError] in
theorem clamp_mem {v : Fl} {x : ℝ} (h : Color.clamp v 1 0 = fin x) : 0 ≤ x ∧ x ≤ 1 := by
  have := Color.clamp_inRange v (mx := 1) (mn := 0) (by norm_num)
  simp only [one_def, zero_def] at h
  rw [h] at this; simpa using this

/-- Saturating: HSL components and channels with their errors. -/
theorem saturated_deep {c : Color} {r g b p : ℝ} (h : IsRgb c r g b) (hbl : 1 / 1000 ≤ max (max r g) b) (p0 : -1 ≤ p) (p1 : p ≤ 99) :
    ∃ H S l S' β r' g' b' k, Leaf.rgb_deep_to_hsl c = ok (obj .hsl H S l c.malpha c.space) ∧ fmax (fmin (fin S * (1 + fin p)) 1) 0 = fin S' ∧
      (∀ al sp, Leaf.hsl_to_rgb_deep (obj .hsl H S' l al sp) = ok (obj .rgbDeep r' g' b' al sp)) ∧ BlueOf r g b β ∧ (0 ≤ r' ∧ r' ≤ 1) ∧ (0 ≤ g' ∧ g' ≤ 1) ∧ (0 ≤ b' ∧ b' ≤ 1) ∧
      k = min (1 + p) (room (lightness r g b) / (top r g b - bot r g b)) ∧
      |r' - (lightness r g b + k * (r - lightness r g b))| ≤ 1 / 10000 + (1 + p) * grain r g b ∧
      |g' - (lightness r g b + k * (g - lightness r g b))| ≤ 1 / 10000 + (1 + p) * grain r g b ∧
      |b' - (lightness r g b + k * (β - lightness r g b))| ≤ 1 / 10000 + (1 + p) * grain r g b := by
  obtain ⟨H, S, l, a, e, β, e1, H0, H1, S0, S1, l0, l1, hG, nl, nS, n1, n2, n3, hβ⟩ := hsl_parts h hbl
  obtain ⟨k1, k2, k3⟩ := from_mid (r := r) (g := g) (b := b)
  obtain ⟨hβ, k3⟩ := blue_of hβ k1 k2 k3
  have hG := grain_of hG
  change |l - lightness r g b| ≤ _ at nl
  change |S * min l (1 - l) - (top r g b - bot r g b) / 2| ≤ a at nS
  change |(top r g b - bot r g b) / 2 * lweight (0 + H / 30) + (r - lightness r g b)| ≤ e at n1
  change |(top r g b - bot r g b) / 2 * lweight (8 + H / 30) + (g - lightness r g b)| ≤ e at n2
  change |(top r g b - bot r g b) / 2 * lweight (4 + H / 30) + (β - lightness r g b)| ≤ e at n3
  have b0 : 0 ≤ bot r g b := le_min (le_min h.r0 h.g0) h.b0
  have t1 : top r g b ≤ 1 := max_le (max_le h.r1 h.g1) h.b1
  have bt : bot r g b ≤ top r g b := (min_le_right _ _).trans (le_max_right _ _)
  have hl : lightness r g b = (top r g b + bot r g b) / 2 := rfl
  have L0 : 0 ≤ lightness r g b := by rw [hl]; linarith
  have L1 : lightness r g b ≤ 1 := by rw [hl]; linarith
  obtain ⟨S', eS, nS'⟩ := scale_near (p := p) S0 S1 p0 p1
  have S'01 : 0 ≤ S' ∧ S' ≤ 1 := by
    have := Color.clamp_inRange (fin S * (1 + fin p)) (mx := 1) (mn := 0) (by norm_num)
    simp only [one_def, zero_def, Color.clamp] at this eS
    rw [eS] at this; simpa using this
  have q0 : 0 ≤ 1 + p := by linarith
  obtain ⟨R0, -⟩ := lmin_range L0 L1
  have room0 := room_nonneg L0 L1
  -- the factor
  have kk : min (1 + p) (room (lightness r g b) / (top r g b - bot r g b)) * ((top r g b - bot r g b) / 2) =
      min ((1 + p) * ((top r g b - bot r g b) / 2)) (min (lightness r g b) (1 - lightness r g b)) := by
    rw [min_mul_of_nonneg _ _ (by linarith)]
    rcases bt.eq_or_lt with ht | ht
    · rw [ht]; simp [R0]
    · congr 1
      have : top r g b - bot r g b ≠ 0 := by linarith
      rw [room_min]; field_simp
  have k0 : 0 ≤ min (1 + p) (room (lightness r g b) / (top r g b - bot r g b)) := le_min q0 (div_nonneg room0 (by linarith))
  have kq : min (1 + p) (room (lightness r g b) / (top r g b - bot r g b)) ≤ 1 + p := min_le_left _ _
  generalize min (1 + p) (room (lightness r g b) / (top r g b - bot r g b)) = k at *
  have ch : ∀ n y : ℝ, 0 ≤ n → n ≤ 8 → |y - lightness r g b| ≤ (top r g b - bot r g b) / 2 → |(top r g b - bot r g b) / 2 * lweight (n + H / 30) + (y - lightness r g b)| ≤ e →
      Near (Color.clamp (Leaf.hslToRgb (fin H) (fin S') (fin l) (fin n)) 1 0) (lightness r g b + k * (y - lightness r g b)) (1 / 10000 + (1 + p) * grain r g b) := by
    intro n y n0 n1 ky hy
    obtain ⟨z, ez, nz⟩ := Hue.hsl_value (n := n) H0 H1 S'01.1 S'01.2 l0.le l1 n0 n1
    have := sat_real (q := 1 + p) nz (lweight_range n0 n1 H0 H1) l0.le l1 nl nS hy nS' q0 k0 kq kk
    have bd := between ky k0 (m := lightness r g b) (by rw [kk]; exact min_le_right _ _)
    refine Near.clamp01 ⟨z, ez, this.trans ?_⟩ bd.1 bd.2
    have : (1 + p) * (a + e + 5 / 1000000) ≤ (1 + p) * grain r g b := by gcongr
    linarith
  obtain ⟨r', er, nr⟩ := ch 0 r (by norm_num) (by norm_num) k1 n1
  obtain ⟨g', eg, ng⟩ := ch 8 g (by norm_num) (by norm_num) k2 n2
  obtain ⟨b', eb, nb⟩ := ch 4 β (by norm_num) (by norm_num) k3 n3
  exact ⟨H, S, l, S', β, r', g', b', k, e1, eS, hsl_back l0.ne' er eg eb, hβ, clamp_mem er, clamp_mem eg, clamp_mem eb, rfl, nr, ng, nb⟩

open Classical in
/-- Luminating: HSL components and channels with their errors. -/
theorem luminated_deep {c : Color} {r g b p : ℝ} (h : IsRgb c r g b) (hbl : 1 / 1000 ≤ max (max r g) b) (p0 : -1 ≤ p) (p1 : p ≤ 99) (hw : 0 < room (lightness r g b)) :
    ∃ H S l l' β r' g' b' m k, Leaf.rgb_deep_to_hsl c = ok (obj .hsl H S l c.malpha c.space) ∧ fmax (fmin (fin l * (1 + fin p)) 1) 0 = fin l' ∧
      (∀ al sp, Leaf.hsl_to_rgb_deep (obj .hsl H S l' al sp) = ok (obj .rgbDeep r' g' b' (if l' = 0 then 0 else al) sp)) ∧ |l' - m| ≤ (8 * (1 + p) + 3) / 1000000 ∧ BlueOf r g b β ∧ (0 ≤ r' ∧ r' ≤ 1) ∧ (0 ≤ g' ∧ g' ≤ 1) ∧ (0 ≤ b' ∧ b' ≤ 1) ∧
      m = min ((1 + p) * lightness r g b) 1 ∧ k = room m / room (lightness r g b) ∧
      |r' - (m + k * (r - lightness r g b))| ≤ 1 / 10000 + (1 + p) * (2 / 100000) + grain r g b / room (lightness r g b) ∧
      |g' - (m + k * (g - lightness r g b))| ≤ 1 / 10000 + (1 + p) * (2 / 100000) + grain r g b / room (lightness r g b) ∧
      |b' - (m + k * (β - lightness r g b))| ≤ 1 / 10000 + (1 + p) * (2 / 100000) + grain r g b / room (lightness r g b) := by
  obtain ⟨H, S, l, a, e, β, e1, H0, H1, S0, S1, l0, l1, hG, nl, nS, n1, n2, n3, hβ⟩ := hsl_parts h hbl
  obtain ⟨k1, k2, k3⟩ := from_mid (r := r) (g := g) (b := b)
  obtain ⟨hβ, k3⟩ := blue_of hβ k1 k2 k3
  have hG := grain_of hG
  change |l - lightness r g b| ≤ _ at nl
  change |S * min l (1 - l) - (top r g b - bot r g b) / 2| ≤ a at nS
  change |(top r g b - bot r g b) / 2 * lweight (0 + H / 30) + (r - lightness r g b)| ≤ e at n1
  change |(top r g b - bot r g b) / 2 * lweight (8 + H / 30) + (g - lightness r g b)| ≤ e at n2
  change |(top r g b - bot r g b) / 2 * lweight (4 + H / 30) + (β - lightness r g b)| ≤ e at n3
  have b0 : 0 ≤ bot r g b := le_min (le_min h.r0 h.g0) h.b0
  have t1 : top r g b ≤ 1 := max_le (max_le h.r1 h.g1) h.b1
  have bt : bot r g b ≤ top r g b := (min_le_right _ _).trans (le_max_right _ _)
  have hl : lightness r g b = (top r g b + bot r g b) / 2 := rfl
  have L0 : 0 ≤ lightness r g b := by rw [hl]; linarith
  have L1 : lightness r g b ≤ 1 := by rw [hl]; linarith
  have q0 : 0 ≤ 1 + p := by linarith
  obtain ⟨l', el, nl'⟩ := scale_near (p := p) l0.le l1 p0 p1
  have l'01 : 0 ≤ l' ∧ l' ≤ 1 := by
    have := Color.clamp_inRange (fin l * (1 + fin p)) (mx := 1) (mn := 0) (by norm_num)
    simp only [one_def, zero_def, Color.clamp] at this el
    rw [el] at this; simpa using this
  -- the lightness
  have nm : |l' - min ((1 + p) * lightness r g b) 1| ≤ (8 * (1 + p) + 3) / 1000000 := by
    have k : |min (l * (1 + p)) 1 - min ((1 + p) * lightness r g b) 1| ≤ (1 + p) * (5 / 1000000) := by
      refine (abs_min_sub_min_le_max _ _ _ _).trans (max_le ?_ ?_)
      · rw [show l * (1 + p) - (1 + p) * lightness r g b = (1 + p) * (l - lightness r g b) by ring, abs_mul, abs_of_nonneg q0]
        gcongr
      · rw [sub_self, abs_zero]; positivity
    have := abs_sub_le l' (min (l * (1 + p)) 1) (min ((1 + p) * lightness r g b) 1)
    linarith
  have m0 : 0 ≤ min ((1 + p) * lightness r g b) 1 := le_min (mul_nonneg q0 L0) (by norm_num)
  have m1 : min ((1 + p) * lightness r g b) 1 ≤ 1 := min_le_right _ _
  have hR : 0 < min (lightness r g b) (1 - lightness r g b) := by rw [room_min] at hw; linarith
  generalize min ((1 + p) * lightness r g b) 1 = m at *
  obtain ⟨M0, -⟩ := lmin_range (l := m) (by linarith) m1
  have kk : room m / room (lightness r g b) = min m (1 - m) / min (lightness r g b) (1 - lightness r g b) := by
    rw [room_min, room_min, mul_div_mul_left _ _ (by norm_num)]
  have hδ : (top r g b - bot r g b) / 2 ≤ min (lightness r g b) (1 - lightness r g b) := by
    rw [hl]; exact le_min (by linarith) (by linarith)
  have wide : ∀ y : ℝ, |y - lightness r g b| ≤ (top r g b - bot r g b) / 2 → |room m / room (lightness r g b) * (y - lightness r g b)| ≤ min m (1 - m) := by
    intro y ky
    have k0 : 0 ≤ min m (1 - m) / min (lightness r g b) (1 - lightness r g b) := by positivity
    rw [kk, abs_mul, abs_of_nonneg k0]
    calc _ ≤ min m (1 - m) / min (lightness r g b) (1 - lightness r g b) * min (lightness r g b) (1 - lightness r g b) := mul_le_mul_of_nonneg_left (ky.trans hδ) k0
      _ = _ := div_mul_cancel₀ _ hR.ne'
  have hgr : 0 ≤ grain r g b / room (lightness r g b) := div_nonneg (by unfold grain; split_ifs <;> norm_num) hw.le
  by_cases l'0 : l' = 0
  · have tiny : ∀ y : ℝ, |y - lightness r g b| ≤ (top r g b - bot r g b) / 2 → |0 - (m + room m / room (lightness r g b) * (y - lightness r g b))| ≤
        1 / 10000 + (1 + p) * (2 / 100000) + grain r g b / room (lightness r g b) := by
      intro y ky
      have a1 := abs_le.mp (wide y ky)
      have a2 := min_le_left m (1 - m)
      rw [l'0] at nm
      have a3 := abs_le.mp nm
      rw [abs_le]
      constructor <;> linarith
    refine ⟨H, S, l, l', β, 0, 0, 0, m, _, e1, el, fun al sp => ?_, nm, hβ, ⟨le_rfl, zero_le_one⟩, ⟨le_rfl, zero_le_one⟩, ⟨le_rfl, zero_le_one⟩, rfl, rfl, tiny r k1, tiny g k2, tiny β k3⟩
    rw [if_pos l'0, l'0]
    exact hsl_back_zero H S al sp
  have ch : ∀ n y : ℝ, 0 ≤ n → n ≤ 8 → |y - lightness r g b| ≤ (top r g b - bot r g b) / 2 → |(top r g b - bot r g b) / 2 * lweight (n + H / 30) + (y - lightness r g b)| ≤ e →
      Near (Color.clamp (Leaf.hslToRgb (fin H) (fin S) (fin l') (fin n)) 1 0) (m + room m / room (lightness r g b) * (y - lightness r g b))
        (1 / 10000 + (1 + p) * (2 / 100000) + grain r g b / room (lightness r g b)) := by
    intro n y n0 n1 ky hy
    obtain ⟨z, ez, nz⟩ := Hue.hsl_value (n := n) H0 H1 S0 S1 l'01.1 l'01.2 n0 n1
    have := lum_real nz (lweight_range n0 n1 H0 H1) nl nm S0 S1 nS hy (by linarith) m1 hR
    rw [kk]
    have bd := between ky (k := min m (1 - m) / min (lightness r g b) (1 - lightness r g b)) (by positivity) (m := m) (by
      calc _ ≤ min m (1 - m) / min (lightness r g b) (1 - lightness r g b) * min (lightness r g b) (1 - lightness r g b) := by gcongr
        _ = _ := div_mul_cancel₀ _ hR.ne')
    refine Near.clamp01 ⟨z, ez, this.trans ?_⟩ bd.1 bd.2
    rw [room_min]
    have : (a + e + 5 / 1000000) / (2 * min (lightness r g b) (1 - lightness r g b)) ≤ grain r g b / (2 * min (lightness r g b) (1 - lightness r g b)) := by gcongr
    linarith
  obtain ⟨r', er, nr⟩ := ch 0 r (by norm_num) (by norm_num) k1 n1
  obtain ⟨g', eg, ng⟩ := ch 8 g (by norm_num) (by norm_num) k2 n2
  obtain ⟨b', eb, nb⟩ := ch 4 β (by norm_num) (by norm_num) k3 n3
  exact ⟨H, S, l, l', β, r', g', b', m, _, e1, el, fun al sp => by rw [if_neg l'0]; exact hsl_back l'0 er eg eb al sp, nm, hβ, clamp_mem er, clamp_mem eg, clamp_mem eb, rfl, rfl, nr, ng, nb⟩

/-- **C175 (partial)** Saturating an RGB colour in HSL with rounding errors: the channels are those of C156, with an error of at most one ten-thousandth plus `1 + p` times the unit of the error.
Missing: nearly black colours. -/
theorem C175_saturate_partial (w : World) (c : Color) (r g b p : ℝ) (h : IsRgb c r g b) (hbl : 1 / 1000 ≤ r ∨ 1 / 1000 ≤ g ∨ 1 / 1000 ≤ b)
    (hp : p ≠ 0) (p0 : -1 ≤ p) (p1 : p ≤ 99) : ∃ β r' g' b' k, BlueOf r g b β ∧ Makes (fun q => Adjust.saturate_in_hsl_space q (fin p)) w c { c with comps := [fin r', fin g', fin b'] } ∧
      k = min (1 + p) (room (lightness r g b) / (top r g b - bot r g b)) ∧
      |r' - (lightness r g b + k * (r - lightness r g b))| ≤ 1 / 10000 + (1 + p) * grain r g b ∧
      |g' - (lightness r g b + k * (g - lightness r g b))| ≤ 1 / 10000 + (1 + p) * grain r g b ∧
      |b' - (lightness r g b + k * (β - lightness r g b))| ≤ 1 / 10000 + (1 + p) * grain r g b := by
  have hbl' : 1 / 1000 ≤ max (max r g) b := by
    rcases hbl with h | h | h
    · exact h.trans ((le_max_left _ _).trans (le_max_left _ _))
    · exact h.trans ((le_max_right _ _).trans (le_max_left _ _))
    · exact h.trans (le_max_right _ _)
  obtain ⟨H, S, l, S', β, r', g', b', k, e1, eS, eb, hβ, -, -, -, hk, n1, n2, n3⟩ := saturated_deep h hbl' p0 p1
  exact ⟨β, r', g', b', k, hβ, (rgb_steps h hp e1).1 S' r' g' b' eS eb, hk, n1, n2, n3⟩

/-- **C175 (partial)** Luminating an RGB colour in HSL with rounding errors: the channels are those of C156, with an error that grows like the reciprocal of the room for chroma.
Missing: nearly black colours and results, and white. -/
theorem C175_luminate_partial (w : World) (c : Color) (r g b p : ℝ) (h : IsRgb c r g b) (hbl : 1 / 1000 ≤ r ∨ 1 / 1000 ≤ g ∨ 1 / 1000 ≤ b)
    (hp : p ≠ 0) (p1 : p ≤ 99) (hw : 0 < room (lightness r g b)) (hd : 1 / 1000 ≤ (1 + p) * lightness r g b) :
    ∃ β r' g' b' m k, BlueOf r g b β ∧ Makes (fun q => Adjust.luminate_in_hsl_space q (fin p)) w c { c with comps := [fin r', fin g', fin b'] } ∧
      m = min ((1 + p) * lightness r g b) 1 ∧ k = room m / room (lightness r g b) ∧
      |r' - (m + k * (r - lightness r g b))| ≤ 1 / 10000 + (1 + p) * (2 / 100000) + grain r g b / room (lightness r g b) ∧
      |g' - (m + k * (g - lightness r g b))| ≤ 1 / 10000 + (1 + p) * (2 / 100000) + grain r g b / room (lightness r g b) ∧
      |b' - (m + k * (β - lightness r g b))| ≤ 1 / 10000 + (1 + p) * (2 / 100000) + grain r g b / room (lightness r g b) := by
  have hbl' : 1 / 1000 ≤ max (max r g) b := by
    rcases hbl with h | h | h
    · exact h.trans ((le_max_left _ _).trans (le_max_left _ _))
    · exact h.trans ((le_max_right _ _).trans (le_max_left _ _))
    · exact h.trans (le_max_right _ _)
  have p0 : -1 ≤ p := by
    by_contra hc
    have L0 : 0 ≤ lightness r g b := by
      rw [room_min] at hw
      linarith [min_le_left (lightness r g b) (1 - lightness r g b)]
    have : (1 + p) * lightness r g b ≤ 0 := mul_nonpos_of_nonpos_of_nonneg (by linarith) L0
    linarith
  obtain ⟨H, S, l, l', β, r', g', b', m, k, e1, el, eb, nm, hβ, -, -, -, hm, hk, n1, n2, n3⟩ := luminated_deep h hbl' p0 p1 hw
  have l'0 : l' ≠ 0 := by
    intro h0
    have m0 : 1 / 1000 ≤ m := hm ▸ le_min hd (by norm_num)
    rw [h0, abs_le] at nm
    linarith [nm.1]
  refine ⟨β, r', g', b', m, k, hβ, (rgb_steps h hp e1).2 l' r' g' b' el (fun al sp => ?_), hm, hk, n1, n2, n3⟩
  rw [eb, if_neg l'0]

end

namespace Binary32

/-- The sum of 1 and the next smaller number lies half way between two numbers and is rounded up to 2. -/
theorem near_two : round32 (2 - 1 / 2 ^ 24) = .fin 2 := by
  have e : ulpExp (2 - 1 / 2 ^ 24) = -23 := ulp_eq (by norm_num) (by norm_num [abs_of_pos]) (by norm_num [abs_of_pos])
  have f : ⌊((2 : ℝ) - 1 / 2 ^ 24) / 2 ^ (-23 : ℤ)⌋ = 2 ^ 24 - 1 := by rw [Int.floor_eq_iff]; norm_num
  have hr : rne (((2 : ℝ) - 1 / 2 ^ 24) / 2 ^ (-23 : ℤ)) = 2 ^ 24 := by
    unfold rne
    rw [f, if_neg (by norm_num), if_neg (by norm_num), if_neg (by decide)]
    norm_num
  have hv : value (2 - 1 / 2 ^ 24) = 2 := by unfold value; rw [e, hr]; norm_num
  unfold round32
  rw [hv, if_neg (by norm_num), if_neg (by norm_num)]

theorem half : round32 (1 / 2) = .fin (1 / 2) := by
  have := round_exact 1 (-1) (by norm_num) (by norm_num) (by norm_num)
  norm_num at this ⊢
  exact this

end Binary32

/-- **C175 fails** next to white: of the yellowish white with the channels 1, 1 and 1 - 2^-24, halving the lightness in HSL makes yellow in exact arithmetic, but grey in single precision. -/
theorem C175_white_violated (w : World) (c : Color) (h : IsRgb c 1 1 (1 - 1 / 2 ^ 24)) :
    (letI := Binary32.binary32; ∃ r' g' b', Makes (fun q => Adjust.luminate_in_hsl_space q (fin (-(1 / 2)))) w c { c with comps := [fin r', fin g', fin b'] } ∧
      |r' - 1 / 2| ≤ 6 / 100000 ∧ |g' - 1 / 2| ≤ 6 / 100000 ∧ |b' - 1 / 2| ≤ 6 / 100000) ∧
    (letI := Fl.exactFloat; Makes (fun q => Adjust.luminate_in_hsl_space q (fin (-(1 / 2)))) w c { c with comps := [fin (1 - 1 / 2 ^ 25), fin (1 - 1 / 2 ^ 25), fin 0] }) := by
  constructor
  · letI := Binary32.binary32
    haveI := Binary32.binary32_int
    haveI := Binary32.binary32_small
    have r2 : rnd (2 - 1 / 2 ^ 24) = fin 2 := Binary32.near_two
    have rh : rnd (1 / 2) = fin (1 / 2) := Binary32.half
    have r1 : rnd 1 = fin 1 := by simpa using IntExact.rnd_int 1 (by norm_num)
    obtain ⟨H, eH, H0, H1⟩ := Color.clamp_inRange (Color.hueReduce (Leaf.hueFromRgb (fin 1) (fin 1) (fin (1 - 1 / 2 ^ 24)) (fin 1) (fin 1 - fin (1 - 1 / 2 ^ 24)))) (mx := 359) (mn := 0) (by norm_num)
    have e1 : Leaf.rgb_deep_to_hsl c = ok (obj .hsl H 0 1 c.malpha c.space) := by
      conv_lhs => rw [rgb_eq h]
      simp only [Leaf.rgb_deep_to_hsl, obj_0, obj_1, obj_2, obj_space, obj_malpha, obj_alpha _ _ _ _ _ _ (rfl : Color.scalesAlpha .rgbDeep = false), ok_bind, fmin_fin, fmax_fin, feq_fin, Color.construct_hsl]
      have m1 : max (max (1 : ℝ) 1) (1 - 1 / 2 ^ 24) = 1 := by norm_num
      have m2 : min (min (1 : ℝ) 1) (1 - 1 / 2 ^ 24) = 1 - 1 / 2 ^ 24 := by norm_num
      have el : fin 0.5 * (fin 1 + fin (1 - 1 / 2 ^ 24)) = fin 1 := by
        rw [fin_add, show (1 : ℝ) + (1 - 1 / 2 ^ 24) = 2 - 1 / 2 ^ 24 by ring, r2, fin_mul, show (0.5 : ℝ) * 2 = 1 by norm_num, r1]
      rw [m1, m2, if_neg (by norm_num), el, if_pos (by simp)]
      have eH' : Color.clamp (Color.hueReduce (Leaf.hueFromRgb (fin 1) (fin 1) (fin (1 - 1 / 2 ^ 24)) (fin 1) (fin 1 - fin (1 - 1 / 2 ^ 24)))) 359 0 = fin H := by
        simpa only [lit_def, zero_def] using eH
      have cz : Color.clamp 0 1 0 = fin 0 := by simpa only [zero_def] using clamp01 (x := 0) le_rfl zero_le_one
      simp only [Color.mkHue, eH', clamp01 (x := 1) zero_le_one le_rfl, cz, obj, Color.maxOf, Color.minOf]
    have el : fmax (fmin (fin 1 * (1 + fin (-(1 / 2)))) 1) 0 = fin (1 / 2) := by
      rw [one_def, fin_add, show (1 : ℝ) + -(1 / 2) = 1 / 2 by norm_num, rh, fin_mul, one_mul, rh, fmin_fin, zero_def, fmax_fin]
      norm_num
    have ch : ∀ n : ℝ, 0 ≤ n → n ≤ 8 → Near (Color.clamp (Leaf.hslToRgb (fin H) (fin 0) (fin (1 / 2)) (fin n)) 1 0) (1 / 2) (6 / 100000) := by
      intro n n0 n1
      have := Hue.hsl_value (S := 0) (l := 1 / 2) H0 H1 le_rfl zero_le_one (by norm_num) (by norm_num) n0 n1
      rw [zero_mul, zero_mul, sub_zero] at this
      exact this.clamp01 (by norm_num) (by norm_num)
    obtain ⟨r', er, nr⟩ := ch 0 (by norm_num) (by norm_num)
    obtain ⟨g', eg, ng⟩ := ch 8 (by norm_num) (by norm_num)
    obtain ⟨b', eb, nb⟩ := ch 4 (by norm_num) (by norm_num)
    exact ⟨r', g', b', (rgb_steps (w := w) h (by norm_num) e1).2 (1 / 2) r' g' b' el (hsl_back (by norm_num) er eg eb), nr, ng, nb⟩
  · letI := Fl.exactFloat
    haveI := Fl.exactFloat_exact
    have m1 : top 1 1 (1 - 1 / 2 ^ 24) = 1 := by norm_num [top]
    have m2 : bot 1 1 (1 - 1 / 2 ^ 24) = 1 - 1 / 2 ^ 24 := by norm_num [bot]
    have hH : HueOf 1 1 (1 - 1 / 2 ^ 24) 60 := by
      refine ⟨by norm_num, by norm_num, ?_, ?_, ?_, ?_⟩
      all_goals rw [m1, m2]
      · rw [hexRed, clip, abs_of_neg (by norm_num)]; norm_num
      · rw [hexGreen, clip, abs_of_neg (by norm_num)]; norm_num
      · rw [hexBlue, clip, abs_of_neg (by norm_num)]; norm_num
      · intro h; norm_num at h
    have := C156_luminate_partial w c 1 1 (1 - 1 / 2 ^ 24) 60 (-(1 / 2)) h hH (by norm_num) (by norm_num) (by norm_num) (by norm_num)
    have hl : lightness 1 1 (1 - 1 / 2 ^ 24) = 1 - 1 / 2 ^ 25 := by rw [lightness, m1, m2]; norm_num
    have hm : min ((1 + -(1 / 2)) * (1 - 1 / 2 ^ 25)) 1 = (1 / 2 - 1 / 2 ^ 26 : ℝ) := by norm_num
    have rm : room (1 / 2 - 1 / 2 ^ 26) = 1 - 1 / 2 ^ 25 := by rw [room, abs_of_neg (by norm_num)]; norm_num
    have rl : room (1 - 1 / 2 ^ 25) = 1 / 2 ^ 24 := by rw [room, abs_of_pos (by norm_num)]; norm_num
    rw [hl, hm, rm, rl] at this
    have v1 : (1 / 2 - 1 / 2 ^ 26 : ℝ) + (1 - 1 / 2 ^ 25) / (1 / 2 ^ 24) * (1 - (1 - 1 / 2 ^ 25)) = 1 - 1 / 2 ^ 25 := by norm_num
    have v2 : (1 / 2 - 1 / 2 ^ 26 : ℝ) + (1 - 1 / 2 ^ 25) / (1 / 2 ^ 24) * (1 - 1 / 2 ^ 24 - (1 - 1 / 2 ^ 25)) = 0 := by norm_num
    rw [spread, v1, v2] at this
    exact this

/-- There is such a colour, and its channels are binary32 numbers. -/
example : IsRgb (obj .rgbDeep 1 1 (1 - 1 / 2 ^ 24) 1 none) 1 1 (1 - 1 / 2 ^ 24) ∧ Binary32.round32 (1 - 1 / 2 ^ 24) = fin (1 - 1 / 2 ^ 24) := by
  refine ⟨⟨⟨rfl, rfl, rfl, rfl, rfl⟩, rfl, by norm_num, by norm_num, by norm_num, by norm_num, by norm_num, by norm_num⟩, ?_⟩
  have := Binary32.round_exact (2 ^ 24 - 1) (-24) (by norm_num) (by norm_num) (by norm_num)
  norm_num at this ⊢
  exact this

/-- A brown in binary32: with half more saturation and with half the lightness. -/
example (w : World) : letI := Binary32.binary32
    ∃ c, IsRgb c (3 / 4) (1 / 2) (1 / 4) ∧
      (∃ r g b, Makes (fun q => Adjust.saturate_in_hsl_space q (fin (1 / 2))) w c { c with comps := [fin r, fin g, fin b] } ∧
        |r - 7 / 8| ≤ 2 / 10000 ∧ |g - 1 / 2| ≤ 2 / 10000 ∧ |b - 1 / 8| ≤ 2 / 10000) ∧
      ∃ r g b, Makes (fun q => Adjust.luminate_in_hsl_space q (fin (-(1 / 2)))) w c { c with comps := [fin r, fin g, fin b] } ∧
        |r - 3 / 8| ≤ 2 / 10000 ∧ |g - 1 / 4| ≤ 2 / 10000 ∧ |b - 1 / 8| ≤ 2 / 10000 := by
  letI := Binary32.binary32
  haveI := Binary32.binary32_int
  haveI := Binary32.binary32_small
  have h : IsRgb (obj .rgbDeep (3 / 4) (1 / 2) (1 / 4) 1 none) (3 / 4) (1 / 2) (1 / 4) :=
    ⟨⟨rfl, rfl, rfl, rfl, rfl⟩, rfl, by norm_num, by norm_num, by norm_num, by norm_num, by norm_num, by norm_num⟩
  have m1 : top (3 / 4) (1 / 2) (1 / 4) = 3 / 4 := by norm_num [top]
  have m2 : bot (3 / 4) (1 / 2) (1 / 4) = 1 / 4 := by norm_num [bot]
  have hl : lightness (3 / 4) (1 / 2) (1 / 4) = 1 / 2 := by rw [lightness, m1, m2]; norm_num
  have hg : grain (3 / 4) (1 / 2) (1 / 4) = 6 / 100000 := by rw [grain, m1, m2, if_pos (.inr (by norm_num))]
  have rl : room (1 / 2) = 1 := by norm_num [room]
  refine ⟨_, h, ?_, ?_⟩
  · obtain ⟨β, r, g, b, k, hβ, hm, hk, n1, n2, n3⟩ := C175_saturate_partial w _ _ _ _ (1 / 2) h (.inl (by norm_num)) (by norm_num) (by norm_num) (by norm_num)
    obtain rfl : β = 1 / 4 := hβ.elim (·.1) fun hg => by norm_num at hg
    rw [hl, rl, m1, m2, min_eq_left (by norm_num)] at hk
    rw [hl, hg, hk] at n1 n2 n3
    norm_num at n1 n2 n3
    refine ⟨r, g, b, hm, ?_, ?_, ?_⟩ <;> linarith
  · obtain ⟨β, r, g, b, m, k, hβ, hm, e1, e2, n1, n2, n3⟩ := C175_luminate_partial w _ _ _ _ (-(1 / 2)) h (.inl (by norm_num)) (by norm_num) (by norm_num) (by rw [hl, rl]; norm_num)
      (by rw [hl]; norm_num)
    obtain rfl : β = 1 / 4 := hβ.elim (·.1) fun hg => by norm_num at hg
    rw [hl, min_eq_left (by norm_num)] at e1
    rw [hl, rl, e1, room, abs_of_neg (by norm_num)] at e2
    rw [hl, hg, rl, e1, e2] at n1 n2 n3
    norm_num at n1 n2 n3
    refine ⟨r, g, b, hm, ?_, ?_, ?_⟩ <;> linarith
