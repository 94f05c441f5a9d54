import Verif.Props.BlendBytes

/-!
# C179: blending translucent 8-bit pixels in single precision

For the modes whose formula stays between 0 and 1 and has no jump, at every pair of alpha bytes.
-/

open Outcome Fl Prog ObjectSpec ConvSpec BlendSpec CombineSpec Hue

namespace BlendSpec

/-- What the blend of two translucent channels should be, times alpha: each colour where it is alone, the formula of the mode where both are. -/
noncomputable def Mode.covered (m : Mode) (a b s d : ℝ) : ℝ := a * (1 - b) * s + b * (1 - a) * d + a * b * m.formula 0 0 s d

end BlendSpec

namespace Blend8

/-- A weighted mean of three numbers between 0 and 1. -/
theorem mean3_range {p q t s d v x : ℝ} (p0 : 0 ≤ p) (q0 : 0 ≤ q) (t0 : 0 ≤ t) (hpq : 0 < p + q + t) (s0 : 0 ≤ s ∧ s ≤ 1) (d0 : 0 ≤ d ∧ d ≤ 1) (v0 : 0 ≤ v ∧ v ≤ 1)
    (hx : x * (p + q + t) = p * s + q * d + t * v) : 0 ≤ x ∧ x ≤ 1 := by
  have h1 := mul_nonneg p0 s0.1
  have h2 := mul_nonneg q0 d0.1
  have h3 := mul_le_mul_of_nonneg_left s0.2 p0
  have h4 := mul_le_mul_of_nonneg_left d0.2 q0
  have h5 := mul_nonneg t0 v0.1
  have h6 := mul_le_mul_of_nonneg_left v0.2 t0
  constructor
  · by_contra hc
    have : x * (p + q + t) < 0 := mul_neg_of_neg_of_pos (not_le.mp hc) hpq
    linarith
  · by_contra hc
    have : 1 * (p + q + t) < x * (p + q + t) := mul_lt_mul_of_pos_right (not_le.mp hc) hpq
    linarith

/-- A weighted mean of three numbers whose weights and values are slightly wrong. -/
theorem mean3 {p q t p' q' t' s d v s' d' v' x x' e k : ℝ} (p0 : 0 ≤ p') (q0 : 0 ≤ q') (t0 : 0 ≤ t') (hpq : 0 < p' + q' + t') (e0 : 0 ≤ e) (e1 : e ≤ 1 / 1000) (hp : |p - p'| ≤ e * p')
    (hq : |q - q'| ≤ e * q') (ht : |t - t'| ≤ e * t') (s0 : 0 ≤ s' ∧ s' ≤ 1) (d0 : 0 ≤ d' ∧ d' ≤ 1) (v0 : 0 ≤ v' ∧ v' ≤ 1) (hs : |s - s'| ≤ k) (hd : |d - d'| ≤ k) (hv : |v - v'| ≤ k)
    (hx : x * (p + q + t) = p * s + q * d + t * v) (hx' : x' * (p' + q' + t') = p' * s' + q' * d' + t' * v') : |x - x'| ≤ 1.002 * e + k := by
  have hp2 := abs_le.mp hp
  have hq2 := abs_le.mp hq
  have ht2 := abs_le.mp ht
  have low : ∀ {c : ℝ}, 0 ≤ c → e * c ≤ c := fun h => by nlinarith
  have pp : 0 ≤ p := by linarith [low p0]
  have qq : 0 ≤ q := by linarith [low q0]
  have tt : 0 ≤ t := by linarith [low t0]
  have big : (1 - e) * (p' + q' + t') ≤ p + q + t := by linarith
  have hpos : 0 < p + q + t := lt_of_lt_of_le (mul_pos (by linarith) hpq) big
  obtain ⟨x0, x1⟩ := mean3_range p0 q0 t0 hpq s0 d0 v0 hx'
  have key : (x - x') * (p + q + t) = (p - p') * (s' - x') + (q - q') * (d' - x') + (t - t') * (v' - x') + (p * (s - s') + q * (d - d') + t * (v - v')) := by
    linear_combination hx - hx'
  have part : ∀ {a a' c : ℝ}, |a - a'| ≤ e * a' → 0 ≤ c ∧ c ≤ 1 → |(a - a') * (c - x')| ≤ e * a' := by
    intro a a' c h hc
    rw [abs_mul]
    have : |c - x'| ≤ 1 := abs_le.mpr ⟨by linarith [hc.1], by linarith [hc.2]⟩
    nlinarith [abs_nonneg (a - a'), abs_nonneg (c - x')]
  have b1 := part hp s0
  have b2 := part hq d0
  have b2' := part ht v0
  have b3 : |p * (s - s') + q * (d - d') + t * (v - v')| ≤ k * (p + q + t) := by
    refine (abs_add_three _ _ _).trans ?_
    rw [abs_mul, abs_mul, abs_mul, abs_of_nonneg pp, abs_of_nonneg qq, abs_of_nonneg tt]
    have := mul_le_mul_of_nonneg_left hs pp
    have := mul_le_mul_of_nonneg_left hd qq
    have := mul_le_mul_of_nonneg_left hv tt
    linarith
  have b4 : |(x - x') * (p + q + t)| ≤ e * p' + e * q' + e * t' + k * (p + q + t) := by
    rw [key]
    refine (abs_add_le _ _).trans ?_
    have := abs_add_three ((p - p') * (s' - x')) ((q - q') * (d' - x')) ((t - t') * (v' - x'))
    linarith
  rw [abs_mul, abs_of_pos hpos] at b4
  have b5 : e * (p' + q' + t') ≤ 1.002 * e * (p + q + t) := by
    have : e * (p' + q' + t') ≤ 1.002 * e * ((1 - e) * (p' + q' + t')) := by
      have h : (1 : ℝ) ≤ 1.002 * (1 - e) := by norm_num; linarith
      have h2 : 0 ≤ e * (p' + q' + t') := by positivity
      have h3 := mul_le_mul_of_nonneg_left h h2
      rw [mul_one] at h3
      calc e * (p' + q' + t') ≤ e * (p' + q' + t') * (1.002 * (1 - e)) := h3
        _ = 1.002 * e * ((1 - e) * (p' + q' + t')) := by ring
    refine this.trans (mul_le_mul_of_nonneg_left big (by positivity))
  refine le_of_mul_le_mul_right ?_ hpos
  linarith

/-- The formulas of the modes without a jump ignore the alpha values and the number of the channel. -/
theorem formula_any (m : Mode) (hm : m.Bounded) (δ : ℝ) (i : ℕ) (s d : ℝ) : m.formula δ i s d = m.formula 0 0 s d := by
  cases m <;> first | rfl | exact absurd hm id

theorem plain (m : Mode) (hm : m.Bounded) : m.Plain := by cases m <;> first | trivial | exact absurd hm id

section
variable [FloatModel] [FineError] [IntExact]

/-- The deep channel of a byte stands for that byte. -/
theorem sample_of {S : ℕ} {s : ℝ} (hS : S ≤ 255) (s01 : 0 ≤ s ∧ s ≤ 1) (es : fin s = Color.clamp (fin S / 255) 1 0) (ns : |s - S / 255| ≤ 12 / 10 ^ 8) : Sample s (S / 255) := by
  refine sample hS s01 ns ?_ ?_
  · rintro rfl
    have r1 : rnd (1 : ℝ) = fin 1 := by simpa using IntExact.rnd_int 1 (by norm_num)
    rw [lit_def, fin_div _ _ (by norm_num), show ((255 : ℕ) : ℝ) / 255 = 1 by norm_num, r1, AdjustSpec.clamp_unit] at es
    simpa [AdjustSpec.unit] using es
  · rintro rfl
    rw [lit_def, fin_div _ _ (by norm_num), Nat.cast_zero, zero_div, FloatModel.rnd_zero, AdjustSpec.clamp_unit] at es
    simpa [AdjustSpec.unit] using es

theorem apart_of (m : Mode) (hm : m.Bounded) {s d x y : ℝ} (hs : Sample s x) (hd : Sample d y) : m.Apart s d := by
  have off : ∀ {c x : ℝ}, Sample c x → OffOne c := by
    intro c x h
    have := h.b
    norm_num at this
    rcases h.high with h1 | h1
    · exact Or.inl (h.top h1)
    · right; norm_num at h1 ⊢; linarith
  cases m <;> first | exact off hs | exact off hd | trivial | exact absurd hm id

end

end Blend8

/-! ## C179: blend modes on translucent 8-bit pixels -/

section
variable [FloatModel] [FineError] [IntExact]

set_option maxHeartbeats 1600000 in
/-- C179: a blend mode whose formula stays between 0 and 1 and has no jump gives a pixel of four bytes for any two pixels of four bytes.  Alpha is within 1/2 + 1/30 of that of `over`, each
channel within 1/2 + 1/15 of the mean of source, destination and formula weighted by the areas they cover.  If both pixels are fully transparent, all four bytes are 0. -/
theorem C179_translucent (m : Mode) (hm : m.Bounded) (w : World) (s d : Color) (S0 S1 S2 SA D0 D1 D2 DA : ℕ) (hs : IsPixel8 s S0 S1 S2 SA) (hd : IsPixel8 d D0 D1 D2 DA) (hsp : s.space = d.space)
    (a b : ℝ) (ha : a = SA / 255) (hb : b = DA / 255) (α : ℝ) (hα : α = a + b - a * b) (x0 x1 x2 : ℝ) (u0 : Unmultiplied α (m.covered a b (S0 / 255) (D0 / 255)) x0)
    (u1 : Unmultiplied α (m.covered a b (S1 / 255) (D1 / 255)) x1) (u2 : Unmultiplied α (m.covered a b (S2 / 255) (D2 / 255)) x2) :
    ∃ r X0 X1 X2 A, Yields (m.run true true) w s d r ∧ IsPixel8 r X0 X1 X2 A ∧ r.space = s.space ∧ |(A : ℝ) - 255 * α| ≤ 1 / 2 + 1 / 30 ∧
      |(X0 : ℝ) - 255 * x0| ≤ 1 / 2 + 1 / 15 ∧ |(X1 : ℝ) - 255 * x1| ≤ 1 / 2 + 1 / 15 ∧ |(X2 : ℝ) - 255 * x2| ≤ 1 / 2 + 1 / 15 ∧
      (SA = 0 → DA = 0 → X0 = 0 ∧ X1 = 0 ∧ X2 = 0 ∧ A = 0) := by
  obtain ⟨s', s0, s1, s2, sa, vs, ps, sps, ⟨es0, es1, es2⟩, ⟨ns0, ns1, ns2⟩, nsa, hso⟩ := Pixel8.deep (w := w) hs
  obtain ⟨d', d0, d1, d2, da, vd, pd, spd, ⟨ed0, ed1, ed2⟩, ⟨nd0, nd1, nd2⟩, nda, hdo⟩ := Pixel8.deep (w := w) hd
  have ca : ∀ {C : ℕ}, C ≤ 255 → (0 : ℝ) ≤ C / 255 ∧ (C / 255 : ℝ) ≤ 1 := by
    intro C hC
    have : (C : ℝ) ≤ 255 := by exact_mod_cast hC
    exact ⟨by positivity, by linarith⟩
  have a01 := ca hs.opacity
  have b01 := ca hd.opacity
  have ra' := Pixel8.rest hs.opacity nsa hso
  have rb' := Pixel8.rest hd.opacity nda hdo
  rw [← ha] at a01 nsa ra'
  rw [← hb] at b01 nda rb'
  have wide : ∀ {c c' : ℝ}, 0 ≤ c' → |c - c'| ≤ 4 / 10 ^ 7 * c' → |c - c'| ≤ 255 * (4 / 10 ^ 7) * c' := fun h0 h => h.trans (by nlinarith)
  have neg : ∀ {c c' f : ℝ}, |c - c'| ≤ f → |(1 - c) - (1 - c')| ≤ f := by
    intro c c' f h
    rwa [show (1 - c) - (1 - c') = -(c - c') by ring, abs_neg]
  have np := Pixel8.product (e := 255 * (4 / 10 ^ 7)) (by norm_num) (by norm_num) a01.1 (by linarith [b01.2] : 0 ≤ 1 - b) (nsa.trans (by norm_num)) (neg rb')
  have nq := Pixel8.product (e := 255 * (4 / 10 ^ 7)) (by norm_num) (by norm_num) b01.1 (by linarith [a01.2] : 0 ≤ 1 - a) (nda.trans (by norm_num)) (neg ra')
  have nt := Pixel8.product (e := 255 * (4 / 10 ^ 7)) (by norm_num) (by norm_num) a01.1 b01.1 (nsa.trans (by norm_num)) (wide b01.1 nda)
  have p0 : 0 ≤ a * (1 - b) := mul_nonneg a01.1 (by linarith [b01.2])
  have q0 : 0 ≤ b * (1 - a) := mul_nonneg b01.1 (by linarith [a01.2])
  have t0 : 0 ≤ a * b := mul_nonneg a01.1 b01.1
  have hα2 : α = a * (1 - b) + b * (1 - a) + a * b := by rw [hα]; ring
  have α1 : α ≤ 1 := by rw [hα]; nlinarith [a01.2, b01.2]
  have β1 : sa + da - sa * da ≤ 1 := by nlinarith [ps.a1, pd.a1]
  have zero : α = 0 ↔ SA = 0 ∧ DA = 0 := by
    constructor
    · intro h
      have h1 : a = 0 := by nlinarith
      have h2 : b = 0 := by nlinarith
      rw [ha, div_eq_zero_iff] at h1
      rw [hb, div_eq_zero_iff] at h2
      norm_num at h1 h2
      exact ⟨h1, h2⟩
    · rintro ⟨h1, h2⟩
      rw [hα, ha, hb, h1, h2]; norm_num
  have cases' : α = 0 ∨ 1 / 255 ≤ α := by
    by_cases h1 : SA = 0
    · by_cases h2 : DA = 0
      · exact Or.inl (zero.mpr ⟨h1, h2⟩)
      · right
        have : (1 : ℝ) ≤ DA := by exact_mod_cast Nat.one_le_iff_ne_zero.mpr h2
        have : 1 / 255 ≤ b := by rw [hb]; linarith
        rw [hα]; nlinarith [a01.1, b01.2]
    · right
      have : (1 : ℝ) ≤ SA := by exact_mod_cast Nat.one_le_iff_ne_zero.mpr h1
      have : 1 / 255 ≤ a := by rw [ha]; linarith
      rw [hα]; nlinarith [b01.1, a01.2]
  have formS : ∀ x y : ℝ, m.covered a b x y = a * (1 - b) * x + b * (1 - a) * y + a * b * m.formula 0 0 x y := fun _ _ => rfl
  simp only [formS] at u0 u1 u2
  have smp0 := Blend8.sample_of hs.bytes.red ⟨ps.rgb.r0, ps.rgb.r1⟩ es0 ns0
  have smp1 := Blend8.sample_of hs.bytes.green ⟨ps.rgb.g0, ps.rgb.g1⟩ es1 ns1
  have smp2 := Blend8.sample_of hs.bytes.blue ⟨ps.rgb.b0, ps.rgb.b1⟩ es2 ns2
  have dmp0 := Blend8.sample_of hd.bytes.red ⟨pd.rgb.r0, pd.rgb.r1⟩ ed0 nd0
  have dmp1 := Blend8.sample_of hd.bytes.green ⟨pd.rgb.g0, pd.rgb.g1⟩ ed1 nd1
  have dmp2 := Blend8.sample_of hd.bytes.blue ⟨pd.rgb.b0, pd.rgb.b1⟩ ed2 nd2
  have main : ∀ p q t : ℝ, p = sa * (1 - da) → q = da * (1 - sa) → t = sa * da → ∀ p' q' t' : ℝ, p' = a * (1 - b) → q' = b * (1 - a) → t' = a * b →
      ∃ r0 r1 r2 ra, Yields (m.run true true) w s' d' (obj .rgbDeep r0 r1 r2 (fin ra) s'.space) ∧ (0 ≤ ra ∧ ra ≤ 1 + 1 / 100000) ∧ |ra - α| ≤ 1.1 / 10 ^ 4 * α ∧
      ((0 ≤ x0 ∧ x0 ≤ 1) ∧ |r0 - x0| ≤ 2.45 / 10 ^ 4) ∧ ((0 ≤ x1 ∧ x1 ≤ 1) ∧ |r1 - x1| ≤ 2.45 / 10 ^ 4) ∧ ((0 ≤ x2 ∧ x2 ≤ 1) ∧ |r2 - x2| ≤ 2.45 / 10 ^ 4) := by
    intro p q t hp hq ht p' q' t' hp' hq' ht'
    rw [← hp, ← hp'] at np
    rw [← hq, ← hq'] at nq
    rw [← ht, ← ht'] at nt
    rw [← hp'] at p0
    rw [← hq'] at q0
    rw [← ht'] at t0
    rw [← hp', ← hq', ← ht'] at hα2
    have hβ' : p + q + t = sa + da - sa * da := by rw [hp, hq, ht]; ring
    simp only [← hp', ← hq', ← ht'] at u0 u1 u2
    have np2 := abs_le.mp np
    have nq2 := abs_le.mp nq
    have nt2 := abs_le.mp nt
    norm_num at np2 nq2 nt2
    have pp : 0 ≤ p := by linarith
    have qq : 0 ≤ q := by linarith
    have tt : 0 ≤ t := by linarith
    have hβ : |(p + q + t) - α| ≤ 1.03 / 10 ^ 4 * α := by
      rw [hα2, abs_le]
      norm_num
      constructor <;> linarith
    have hβ2 := abs_le.mp hβ
    have un : ∀ v u f : ℝ, Unmultiplied (p + q + t) (p * v + q * u + t * f) ((p * v + q * u + t * f) / (p + q + t)) := by
      intro v u f
      refine ⟨?_, fun h => by rw [h, div_zero]⟩
      by_cases h : p + q + t = 0
      · have h1 : p = 0 := by linarith
        have h2 : q = 0 := by linarith
        have h3 : t = 0 := by linarith
        simp [h1, h2, h3]
      · exact div_mul_cancel₀ _ h
    obtain ⟨r0, r1, r2, ra, hy, nra, n0, n1, n2⟩ := C133_translucent_partial m hm w s' d' s0 s1 s2 sa d0 d1 d2 da ps pd (by rw [sps, spd, hsp]) (Blend8.apart_of m hm smp0 dmp0)
      (Blend8.apart_of m hm smp1 dmp1) (Blend8.apart_of m hm smp2 dmp2) (p + q + t) hβ'
      (by
        rcases cases' with h | h
        · left; rw [h] at hβ; simpa using hβ
        · right; norm_num at hβ2 ⊢; linarith) _ _ _ (by rw [← hp, ← hq, ← ht]; exact un _ _ _) (by rw [← hp, ← hq, ← ht]; exact un _ _ _) (by rw [← hp, ← hq, ← ht]; exact un _ _ _)
    have nra2 := abs_le.mp nra
    have β0 : 0 ≤ p + q + t := by linarith
    have β1' : p + q + t ≤ 1 := by rw [hβ']; exact β1
    have chan : ∀ {S D i : ℕ} {v u x y : ℝ}, Blend8.Sample v (S / 255) → Blend8.Sample u (D / 255) →
        Unmultiplied α (p' * (S / 255) + q' * (D / 255) + t' * m.formula 0 0 (S / 255) (D / 255)) x →
        |y - (p * v + q * u + t * m.formula (sa - da) i v u) / (p + q + t)| ≤ 1 / 25000 → (0 ≤ x ∧ x ≤ 1) ∧ |y - x| ≤ 2.45 / 10 ^ 4 := by
      intro S D i v u x y hv hu hx ny
      rcases cases' with h | h
      · have hz : p + q + t = 0 := by rw [h] at hβ; simpa using hβ
        rw [hz, div_zero] at ny
        rw [hx.2 h]
        exact ⟨by norm_num, ny.trans (by norm_num)⟩
      · have h' : 0 < p' + q' + t' := by rw [← hα2]; linarith
        have hx1 := hx.1
        rw [hα2] at hx1
        have f1 := Blend.formula_range m hm 0 0 hv.x0 hv.x1 hu.x0 hu.x1
        have f2 := Blend.formula_range m hm (sa - da) i hv.s0 hv.s1 hu.s0 hu.s1
        have mc := Blend8.mode_close m (Blend8.plain m hm) i hv hu (by rintro rfl; exact absurd hm id)
        rw [Blend8.formula_any m hm 0 i, ← Blend8.formula_any m hm (sa - da) i, Blend8.limit_of f1.1 f1.2, Blend8.limit_of f2.1 f2.2] at mc
        have mm := Blend8.mean3 p0 q0 t0 h' (by norm_num) (by norm_num) np nq nt ⟨hv.x0, hv.x1⟩ ⟨hu.x0, hu.x1⟩ f1 (hv.near.trans (by norm_num)) (hu.near.trans (by norm_num)) mc
          (un v u (m.formula (sa - da) i v u)).1 hx1
        refine ⟨Blend8.mean3_range p0 q0 t0 h' ⟨hv.x0, hv.x1⟩ ⟨hu.x0, hu.x1⟩ f1 hx1, ?_⟩
        have := abs_sub_le y ((p * v + q * u + t * m.formula (sa - da) i v u) / (p + q + t)) x
        norm_num at mm ny ⊢
        linarith
    refine ⟨r0, r1, r2, ra, hy, ⟨?_, ?_⟩, ?_, chan smp0 dmp0 u0 n0, chan smp1 dmp1 u1 n1, chan smp2 dmp2 u2 n2⟩
    · norm_num at nra2; linarith
    · norm_num at nra2; linarith
    · norm_num at nra2 hβ2
      rw [abs_le]
      norm_num
      constructor <;> linarith
  obtain ⟨r0, r1, r2, ra, hy, ⟨ra0, ra1⟩, nra, ⟨l0, k0⟩, ⟨l1, k1⟩, ⟨l2, k2⟩⟩ := main _ _ _ rfl rfl rfl _ _ _ rfl rfl rfl
  have small : ∀ {y x : ℝ}, (0 ≤ x ∧ x ≤ 1) → |y - x| ≤ 2.45 / 10 ^ 4 → |y| ≤ 2 := by
    intro y x hx h
    have := abs_le.mp h
    norm_num at this
    exact abs_le.mpr ⟨by linarith, by linarith⟩
  obtain ⟨r, X0, X1, X2, A, vr, pr, spr, m0, m1, m2, mA⟩ := Pixel8.store (w := w) (small l0 k0) (small l1 k1) (small l2 k2) ra0 ra1 s'.space
  have fin' : ∀ {X : ℕ} {y x : ℝ}, (0 ≤ x ∧ x ≤ 1) → |y - x| ≤ 2.45 / 10 ^ 4 → |(X : ℝ) - 255 * AdjustSpec.unit y| ≤ 1 / 2 + 1 / 10000 → |(X : ℝ) - 255 * x| ≤ 1 / 2 + 1 / 15 := by
    intro X y x hx h h2
    have h3 := abs_le.mp (Pixel8.unit_in hx h)
    have h2 := abs_le.mp h2
    norm_num at h3
    exact abs_le.mpr ⟨by linarith, by linarith⟩
  have hA : |(A : ℝ) - 255 * α| ≤ 1 / 2 + 1 / 30 := by
    have h1 := abs_le.mp mA
    have h2 := abs_le.mp nra
    norm_num at h1 h2
    exact abs_le.mpr ⟨by linarith, by linarith⟩
  have q0' := fin' l0 k0 m0
  have q1' := fin' l1 k1 m1
  have q2' := fin' l2 k2 m2
  refine ⟨r, X0, X1, X2, A, C57_any_type m ?_ w true true .rgbTrue .rgbTrue (by simp) (by simp) s d s' d' _ r hs.bytes.col hd.bytes.col hsp vs vd hy vr, pr, by rw [spr, sps], hA, q0', q1', q2', ?_⟩
  · rintro rand rfl
    exact hm
  intro hz1 hz2
  have h := zero.mpr ⟨hz1, hz2⟩
  rw [u0.2 h] at q0'
  rw [u1.2 h] at q1'
  rw [u2.2 h] at q2'
  rw [h] at hA
  have nil : ∀ {X : ℕ} {e : ℝ}, |(X : ℝ) - 255 * 0| ≤ e → e < 1 → X = 0 := by
    intro X e hX he
    have h1 := (abs_le.mp hX).2
    have : (X : ℝ) < 1 := by linarith
    exact Nat.lt_one_iff.mp (by exact_mod_cast this)
  exact ⟨nil q0' (by norm_num), nil q1' (by norm_num), nil q2' (by norm_num), nil hA (by norm_num)⟩

/-- C179: over a fully transparent destination every such mode leaves the channels and the alpha of the source as they are, byte for byte. -/
theorem C179_alone (m : Mode) (hm : m.Bounded) (w : World) (s d : Color) (S0 S1 S2 SA D0 D1 D2 : ℕ) (hs : IsPixel8 s S0 S1 S2 SA) (hd : IsPixel8 d D0 D1 D2 0) (hsp : s.space = d.space) (h0 : SA ≠ 0) :
    ∃ r, Yields (m.run true true) w s d r ∧ IsPixel8 r S0 S1 S2 SA := by
  have hA : (SA / 255 : ℝ) ≠ 0 := by rw [div_ne_zero_iff]; exact ⟨by exact_mod_cast h0, by norm_num⟩
  have un : ∀ S D : ℕ, Unmultiplied (SA / 255 : ℝ) (m.covered (SA / 255) 0 (S / 255) (D / 255)) (S / 255) := fun S D => ⟨by simp only [Mode.covered]; ring, fun h => absurd h hA⟩
  obtain ⟨r, X0, X1, X2, A, hy, pr, -, nA, n0, n1, n2, -⟩ := C179_translucent m hm w s d S0 S1 S2 SA D0 D1 D2 0 hs hd hsp (SA / 255) 0 rfl (by norm_num) (SA / 255) (by ring) _ _ _
    (un S0 D0) (un S1 D1) (un S2 D2)
  have ex : ∀ {X N : ℕ}, |(X : ℝ) - 255 * (N / 255)| ≤ 1 / 2 + 1 / 15 → X = N := by
    intro X N h
    rw [show 255 * ((N : ℝ) / 255) = N by ring] at h
    have h1 : |((X : ℤ) - N : ℤ)| < 1 := by
      have : |(((X : ℤ) - N : ℤ) : ℝ)| < 1 := by push_cast; exact h.trans_lt (by norm_num)
      exact_mod_cast this
    have := Int.abs_lt_one_iff.mp h1
    omega
  rw [ex n0, ex n1, ex n2, Pixel8.exact nA rfl] at pr
  exact ⟨r, hy, pr⟩

end

/-- Case: in single precision, multiply of a translucent with an opaque pixel; screen over a transparent pixel. -/
example (w : World) : letI := Binary32.binary32
    (∃ r X0 X1 X2 A, Yields (ColorBlend.multiply true true) w (Color.mkRgbTrue (fin (255 : ℕ)) (fin (0 : ℕ)) (fin (51 : ℕ)) (fin (51 : ℕ)) none)
      (Color.mkRgbTrue (fin (255 : ℕ)) (fin (0 : ℕ)) (fin (51 : ℕ)) (fin (255 : ℕ)) none) r ∧ IsPixel8 r X0 X1 X2 A ∧ X0 = 255 ∧ A = 255) ∧
    ∃ r, Yields (ColorBlend.screen true true) w (Color.mkRgbTrue (fin (255 : ℕ)) (fin (0 : ℕ)) (fin (51 : ℕ)) (fin (51 : ℕ)) none)
      (Color.mkRgbTrue (fin (9 : ℕ)) (fin (8 : ℕ)) (fin (7 : ℕ)) (fin (0 : ℕ)) none) r ∧ IsPixel8 r 255 0 51 51 := by
  letI := Binary32.binary32
  haveI := Binary32.binary32_fine
  haveI := Binary32.binary32_int
  have h1 := isPixel8_mk 255 0 51 51 (by norm_num) (by norm_num) (by norm_num) (by norm_num) none
  have h2 := isPixel8_mk 255 0 51 255 (by norm_num) (by norm_num) (by norm_num) (by norm_num) none
  have h3 := isPixel8_mk 9 8 7 0 (by norm_num) (by norm_num) (by norm_num) (by norm_num) none
  obtain ⟨r, X0, X1, X2, A, hy, pr, -, nA, n0, -⟩ := C179_translucent .multiply trivial w _ _ 255 0 51 51 255 0 51 255 h1 h2 rfl (1 / 5) 1 (by norm_num) (by norm_num) 1 (by norm_num)
    1 0 (21 / 125) ⟨by norm_num [Mode.covered, Mode.formula], by norm_num⟩ ⟨by norm_num [Mode.covered, Mode.formula], by norm_num⟩ ⟨by norm_num [Mode.covered, Mode.formula], by norm_num⟩
  obtain ⟨r', hy', pr'⟩ := C179_alone .screen trivial w _ _ 255 0 51 51 9 8 7 h1 h3 rfl (by norm_num)
  refine ⟨⟨r, X0, X1, X2, A, hy, pr, ?_, Pixel8.exact (N := 255) nA (by norm_num)⟩, r', hy', pr'⟩
  have hX := pr.bytes.red
  have h4 := (abs_le.mp n0).1
  have : (254 : ℝ) < X0 := by norm_num at h4; linarith
  have : 254 < X0 := by exact_mod_cast this
  omega
