import Verif.Cie00Near
import Verif.Props.PixelBytes

/-!
# C178: blending opaque 8-bit pixels in single precision

The blend modes convert 8-bit pixels to RGB_DEEP, apply their formula there and convert back.  In binary32 the result is next to the value of the formula at `S / 255` and `D / 255`;
where the formula gives whole bytes, the result has exactly these.
-/

open Outcome Fl Prog ObjectSpec ConvSpec BlendSpec CombineSpec Hue

namespace BlendSpec

/-- The modes with a fixed formula. -/
def Mode.Plain : Mode → Prop
  | .dissolve _ | .custom _ => False
  | _ => True

/-- The value of a mode for two 8-bit channels, between 0 and 1. -/
noncomputable def Mode.byte (m : Mode) (S D : ℕ) : ℝ := limit (m.formula 0 0 (S / 255) (D / 255))

/-- The modes whose value for two bytes is a byte. -/
def Mode.bytes : Mode → Option (ℕ → ℕ → ℕ)
  | .normal => some fun S _ => S
  | .darken => some fun S D => min S D
  | .lighten => some fun S D => max S D
  | .linear_dodge | .plus_lighter => some fun S D => min (S + D) 255
  | .linear_burn | .plus_darker => some fun S D => S + D - 255
  | .linear_light => some fun S D => min (D + 2 * S - 255) 255
  | .pin_light => some fun S D => if S ≤ 127 then min D (2 * S) else max D (2 * S - 255)
  | .hard_mix => some fun S D => if S + D < 255 then 0 else 255
  | .difference => some fun S D => max S D - min S D
  | .subtract => some fun S D => S - D
  | _ => none

/-- The source byte with which a mode changes no destination. -/
def Mode.neutral : Mode → Option ℕ
  | .multiply | .darken | .linear_burn | .plus_darker | .divide => some 255
  | .screen | .lighten | .linear_dodge | .plus_lighter | .difference | .exclusion | .color_dodge => some 0
  | _ => none

end BlendSpec

namespace Blend8

/-- `s` stands for the multiple `x` of 1 / 255. -/
structure Sample (s x : ℝ) : Prop where
  s0 : 0 ≤ s
  s1 : s ≤ 1
  x0 : 0 ≤ x
  x1 : x ≤ 1
  near : |s - x| ≤ 12 / 10 ^ 8
  top : x = 1 → s = 1
  bot : x = 0 → s = 0
  low : x = 0 ∨ 1 / 255 ≤ x
  high : x = 1 ∨ x ≤ 1 - 1 / 255
  mid : x ≤ 1 / 2 - 1 / 510 ∨ 1 / 2 + 1 / 510 ≤ x

theorem sample {S : ℕ} {s : ℝ} (hS : S ≤ 255) (s01 : 0 ≤ s ∧ s ≤ 1) (near : |s - S / 255| ≤ 12 / 10 ^ 8) (top : S = 255 → s = 1) (bot : S = 0 → s = 0) : Sample s (S / 255) := by
  have h : (S : ℝ) ≤ 255 := by exact_mod_cast hS
  refine ⟨s01.1, s01.2, by positivity, by linarith, near, ?_, ?_, ?_, ?_, ?_⟩
  · intro h1
    rw [div_eq_one_iff_eq (by norm_num)] at h1
    exact top (by exact_mod_cast h1)
  · intro h1
    rw [div_eq_zero_iff] at h1
    norm_num at h1
    exact bot h1
  · rcases Nat.eq_zero_or_pos S with h | h
    · left; simp [h]
    · right
      have : (1 : ℝ) ≤ S := by exact_mod_cast h
      linarith
  · by_cases h : S = 255
    · left; rw [h]; norm_num
    · right
      have : (S : ℝ) ≤ 254 := by exact_mod_cast (by omega : S ≤ 254)
      linarith
  · by_cases h : S ≤ 127
    · left
      have : (S : ℝ) ≤ 127 := by exact_mod_cast h
      linarith
    · right
      have : (128 : ℝ) ≤ S := by exact_mod_cast (by omega : 128 ≤ S)
      linarith

namespace Sample
variable {s x : ℝ} (h : Sample s x)
include h

theorem b : -(12 / 10 ^ 8) ≤ s - x ∧ s - x ≤ 12 / 10 ^ 8 := abs_le.mp h.near

theorem half : s ≤ 1 / 2 ↔ x ≤ 1 / 2 := by
  have := h.b
  norm_num at this
  rcases h.mid with h1 | h1
  · exact ⟨fun _ => by linarith, fun _ => by linarith⟩
  · exact ⟨fun _ => by linarith, fun _ => by linarith⟩

theorem one : s = 1 ↔ x = 1 := by
  have := h.b
  norm_num at this
  refine ⟨fun h1 => ?_, h.top⟩
  rcases h.high with h2 | h2
  · exact h2
  · linarith

theorem zero : s = 0 ↔ x = 0 := by
  have := h.b
  norm_num at this
  refine ⟨fun h1 => ?_, h.bot⟩
  rcases h.low with h2 | h2
  · exact h2
  · linarith

theorem not_half : s ≠ 1 / 2 ∧ x ≠ 1 / 2 := by
  have := h.b
  norm_num at this
  constructor
  · intro h1
    rcases h.mid with h2 | h2 <;> linarith
  · intro h1
    rcases h.mid with h2 | h2 <;> linarith

end Sample

theorem limit_of {x : ℝ} (h0 : 0 ≤ x) (h1 : x ≤ 1) : limit x = x := by simp [limit, h0, h1]

theorem limit_le_one (x : ℝ) : limit x ≤ 1 := max_le zero_le_one (min_le_left _ _)

theorem limit_min (x : ℝ) : limit (min x 1) = limit x := by simp [limit, min_comm x]

theorem limit_sub (x : ℝ) : limit (1 - x) = 1 - limit x := by
  unfold limit
  rcases le_total x 0 with h | h
  · rw [min_eq_left (by linarith), min_eq_right (by linarith), max_eq_left h]; simp
  · rcases le_total x 1 with h1 | h1
    · rw [min_eq_right (by linarith), min_eq_right h1, max_eq_right h, max_eq_right (by linarith)]
    · rw [min_eq_right (by linarith), min_eq_left h1, max_eq_left (by linarith)]; simp

theorem quot_side {d u d' u' e f : ℝ} (d0 : 0 ≤ d) (d0' : 0 ≤ d') (hu : 1 / 256 ≤ u) (hu' : 1 / 256 ≤ u') (e0 : 0 ≤ e) (f0 : 0 ≤ f) (hd : d - d' ≤ e) (hf : u' - u ≤ f) :
    limit (d / u) ≤ limit (d' / u') + 256 * (e + f) := by
  have pu : 0 < u := by linarith
  have pu' : 0 < u' := by linarith
  rcases le_or_gt u' d' with h | h
  · have : limit (d' / u') = 1 := by
      have : 1 ≤ d' / u' := by rwa [le_div_iff₀ pu', one_mul]
      simp [limit, this]
    rw [this]
    linarith [limit_le_one (d / u)]
  · have q1 : d' / u' ≤ 1 := by rw [div_le_one pu']; exact h.le
    rw [limit_of (by positivity) q1]
    have h1 : limit (d / u) ≤ d / u := max_le (by positivity) (min_le_right _ _)
    refine h1.trans ?_
    rw [div_le_iff₀ pu]
    have h2 : d' = d' / u' * u' := by field_simp
    have h3 : d' / u' * (u' - u) ≤ f := by
      have : d' / u' * (u' - u) ≤ d' / u' * f := mul_le_mul_of_nonneg_left hf (by positivity)
      nlinarith
    have h4 : e + f ≤ 256 * (e + f) * u := by nlinarith
    nlinarith

theorem quot_close {d u d' u' e f : ℝ} (d0 : 0 ≤ d) (d0' : 0 ≤ d') (hu : 1 / 256 ≤ u) (hu' : 1 / 256 ≤ u') (hd : |d - d'| ≤ e) (hf : |u - u'| ≤ f) :
    |limit (d / u) - limit (d' / u')| ≤ 256 * (e + f) := by
  have e0 := (abs_nonneg _).trans hd
  have f0 := (abs_nonneg _).trans hf
  have hd2 := abs_le.mp hd
  have hf2 := abs_le.mp hf
  have h1 := quot_side d0 d0' hu hu' e0 f0 hd2.2 (by linarith)
  have h2 := quot_side d0' d0 hu' hu e0 f0 (by linarith) (by linarith : u - u' ≤ f)
  exact abs_le.mpr ⟨by linarith, by linarith⟩

/-- Products of numbers between 0 and 1. -/
theorem mul_close {a b a' b' e : ℝ} (hb : 0 ≤ b ∧ b ≤ 1) (ha' : 0 ≤ a' ∧ a' ≤ 1) (h1 : |a - a'| ≤ e) (h2 : |b - b'| ≤ e) : |a * b - a' * b'| ≤ 2 * e := by
  rw [show a * b - a' * b' = (a - a') * b + a' * (b - b') by ring]
  refine (abs_add_le _ _).trans ?_
  rw [abs_mul, abs_mul, abs_of_nonneg hb.1, abs_of_nonneg ha'.1]
  nlinarith [abs_nonneg (a - a'), abs_nonneg (b - b')]

/-- The formulas hardly change with the channels. -/
theorem mode_close (m : Mode) (hm : m.Plain) (i : ℕ) {s d x y : ℝ} (hs : Sample s x) (hd : Sample d y) (hj : m = .hard_mix → (s + d < 1 ↔ x + y < 1)) :
    |limit (m.formula 0 i s d) - limit (m.formula 0 0 x y)| ≤ 1 / 10 ^ 4 := by
  have bs := hs.b
  have bd := hd.b
  have small : ∀ {a a' e : ℝ}, |a - a'| ≤ e → e ≤ 1 / 10 ^ 4 → |limit a - limit a'| ≤ 1 / 10 ^ 4 := fun h he => (Blend.limit_close h).trans he
  have ms := mul_close ⟨hd.s0, hd.s1⟩ ⟨hs.x0, hs.x1⟩ hs.near hd.near
  have ms' := abs_le.mp ms
  have mc := mul_close (a := 1 - s) (a' := 1 - x) (b := 1 - d) (b' := 1 - y) (e := 12 / 10 ^ 8) ⟨by linarith [hd.s1], by linarith [hd.s0]⟩ ⟨by linarith [hs.x1], by linarith [hs.x0]⟩
    (by rw [show 1 - s - (1 - x) = -(s - x) by ring, abs_neg]; exact hs.near) (by rw [show 1 - d - (1 - y) = -(d - y) by ring, abs_neg]; exact hd.near)
  have mc' := abs_le.mp mc
  have lin : ∀ {a a' : ℝ}, -(96 / 10 ^ 8) ≤ a - a' → a - a' ≤ 96 / 10 ^ 8 → |limit a - limit a'| ≤ 1 / 10 ^ 4 := fun h1 h2 => small (abs_le.mpr ⟨h1, h2⟩) (by norm_num)
  norm_num at bs bd ms' mc'
  cases m with
  | normal => exact small hs.near (by norm_num)
  | multiply => exact small ms (by norm_num)
  | screen => simp only [Mode.formula]; apply lin <;> linarith
  | overlay =>
    simp only [Mode.formula]
    by_cases h : y ≤ 1 / 2
    · rw [if_pos h, if_pos (hd.half.mpr h)]; apply lin <;> linarith
    · rw [if_neg h, if_neg (fun h' => h (hd.half.mp h'))]; apply lin <;> linarith
  | darken => exact small ((abs_min_sub_min_le_max _ _ _ _).trans (max_le hs.near hd.near)) (by norm_num)
  | lighten => exact small ((abs_max_sub_max_le_max _ _ _ _).trans (max_le hs.near hd.near)) (by norm_num)
  | color_dodge =>
    simp only [Mode.formula]
    by_cases h : y = 0
    · rw [if_pos h, if_pos (hd.zero.mpr h), sub_self, abs_zero]; norm_num
    · rw [if_neg h, if_neg (fun h' => h (hd.zero.mp h'))]
      by_cases h2 : x = 1
      · rw [if_pos h2, if_pos (hs.one.mpr h2), sub_self, abs_zero]; norm_num
      · rw [if_neg h2, if_neg (fun h' => h2 (hs.one.mp h')), limit_min, limit_min]
        have h3 := hs.high.resolve_left h2
        refine (quot_close hd.s0 hd.x0 (by norm_num at h3 ⊢; linarith) (by norm_num at h3 ⊢; linarith) hd.near (f := 12 / 10 ^ 8) (abs_le.mpr ⟨by norm_num; linarith, by norm_num; linarith⟩)).trans
          (by norm_num)
  | linear_dodge => simp only [Mode.formula]; apply lin <;> linarith
  | color_burn =>
    simp only [Mode.formula]
    by_cases h : y = 1
    · rw [if_pos h, if_pos (hd.one.mpr h), sub_self, abs_zero]; norm_num
    · rw [if_neg h, if_neg (fun h' => h (hd.one.mp h'))]
      by_cases h2 : x = 0
      · rw [if_pos h2, if_pos (hs.zero.mpr h2), sub_self, abs_zero]; norm_num
      · rw [if_neg h2, if_neg (fun h' => h2 (hs.zero.mp h')), limit_min, limit_min]
        have h3 := hs.low.resolve_left h2
        refine (quot_close (e := 12 / 10 ^ 8) (by linarith [hd.s1]) (by linarith [hd.x1]) (by norm_num at h3 ⊢; linarith) (by norm_num at h3 ⊢; linarith)
          (abs_le.mpr ⟨by norm_num; linarith, by norm_num; linarith⟩) hs.near).trans (by norm_num)
  | linear_burn => simp only [Mode.formula]; apply lin <;> linarith
  | hard_light =>
    simp only [Mode.formula]
    by_cases h : x ≤ 1 / 2
    · rw [if_pos h, if_pos (hs.half.mpr h)]; apply lin <;> linarith
    · rw [if_neg h, if_neg (fun h' => h (hs.half.mp h'))]; apply lin <;> linarith
  | soft_light =>
    simp only [Mode.formula]
    by_cases h : x ≤ 1 / 2
    · rw [if_pos h, if_pos (hs.half.mpr h)]; apply lin <;> linarith
    · rw [if_neg h, if_neg (fun h' => h (hs.half.mp h'))]; apply lin <;> linarith
  | vivid_light =>
    simp only [Mode.formula]
    by_cases h : x ≤ 1 / 2
    · rw [if_pos h, if_pos (hs.half.mpr h)]
      by_cases h2 : y = 0
      · rw [if_pos h2, if_pos (hd.zero.mpr h2), sub_self, abs_zero]; norm_num
      · rw [if_neg h2, if_neg (fun h' => h2 (hd.zero.mp h')), if_neg hs.not_half.1, if_neg hs.not_half.2]
        have h3 := hs.mid.resolve_right (by linarith)
        refine (quot_close hd.s0 hd.x0 (by norm_num at h3 ⊢; linarith) (by norm_num at h3 ⊢; linarith) hd.near (f := 24 / 10 ^ 8) (abs_le.mpr ⟨by norm_num; linarith, by norm_num; linarith⟩)).trans
          (by norm_num)
    · rw [if_neg h, if_neg (fun h' => h (hs.half.mp h'))]
      by_cases h2 : y = 1
      · rw [if_pos h2, if_pos (hd.one.mpr h2), sub_self, abs_zero]; norm_num
      · rw [if_neg h2, if_neg (fun h' => h2 (hd.one.mp h'))]
        by_cases h4 : x = 1
        · rw [if_pos h4, if_pos (hs.one.mpr h4), sub_self, abs_zero]; norm_num
        · rw [if_neg h4, if_neg (fun h' => h4 (hs.one.mp h')), limit_sub, limit_sub]
          have h3 := hs.mid.resolve_left (by linarith)
          rw [show ∀ a b : ℝ, 1 - a - (1 - b) = -(a - b) by intros; ring, abs_neg]
          refine (quot_close (e := 12 / 10 ^ 8) (by linarith [hd.s1]) (by linarith [hd.x1]) (by norm_num at h3 ⊢; linarith) (by norm_num at h3 ⊢; linarith)
            (abs_le.mpr ⟨by norm_num; linarith, by norm_num; linarith⟩) (f := 24 / 10 ^ 8) (abs_le.mpr ⟨by norm_num; linarith, by norm_num; linarith⟩)).trans (by norm_num)
  | linear_light =>
    simp only [Mode.formula]
    by_cases h : x ≤ 1 / 2
    · rw [if_pos h, if_pos (hs.half.mpr h)]; apply lin <;> linarith
    · rw [if_neg h, if_neg (fun h' => h (hs.half.mp h'))]; apply lin <;> linarith
  | pin_light =>
    simp only [Mode.formula]
    have t1 : |2 * s - 2 * x| ≤ 24 / 10 ^ 8 := abs_le.mpr ⟨by norm_num; linarith, by norm_num; linarith⟩
    have t2 : |(2 * s - 1) - (2 * x - 1)| ≤ 24 / 10 ^ 8 := abs_le.mpr ⟨by norm_num; linarith, by norm_num; linarith⟩
    have t3 := hd.near.trans (by norm_num : (12 / 10 ^ 8 : ℝ) ≤ 24 / 10 ^ 8)
    by_cases h : x ≤ 1 / 2
    · rw [if_pos h, if_pos (hs.half.mpr h)]
      exact small ((abs_min_sub_min_le_max _ _ _ _).trans (max_le t3 t1)) (by norm_num)
    · rw [if_neg h, if_neg (fun h' => h (hs.half.mp h'))]
      exact small ((abs_max_sub_max_le_max _ _ _ _).trans (max_le t3 t2)) (by norm_num)
  | hard_mix =>
    simp only [Mode.formula, hj rfl, sub_self, abs_zero]
    norm_num
  | difference =>
    simp only [Mode.formula]
    refine small (e := 24 / 10 ^ 8) ((abs_abs_sub_abs_le_abs_sub _ _).trans (abs_le.mpr ⟨?_, ?_⟩)) (by norm_num) <;> norm_num <;> linarith
  | subtract => simp only [Mode.formula]; apply lin <;> linarith
  | divide =>
    simp only [Mode.formula]
    by_cases h : y = 0
    · rw [if_pos h, if_pos (hd.zero.mpr h), sub_self, abs_zero]; norm_num
    · rw [if_neg h, if_neg (fun h' => h (hd.zero.mp h'))]
      by_cases h2 : x = 0
      · rw [if_pos h2, if_pos (hs.zero.mpr h2), sub_self, abs_zero]; norm_num
      · rw [if_neg h2, if_neg (fun h' => h2 (hs.zero.mp h'))]
        have h3 := hs.low.resolve_left h2
        exact (quot_close hd.s0 hd.x0 (by norm_num at h3 ⊢; linarith) (by norm_num at h3 ⊢; linarith) hd.near hs.near).trans (by norm_num)
  | plus_lighter => simp only [Mode.formula]; apply lin <;> linarith
  | plus_darker => simp only [Mode.formula]; apply lin <;> linarith
  | exclusion => simp only [Mode.formula]; apply lin <;> linarith
  | dissolve rand => exact absurd hm id
  | custom f => exact absurd hm id

/-! ### Bytes in binary32 -/

open Binary32 in
/-- The deep channel of a byte is `S / 255` rounded once. -/
theorem rounded {S : ℕ} {s : ℝ} (hS : S ≤ 255) : letI := Binary32.binary32; fin s = Color.clamp (fin S / 255) 1 0 → round32 (S / 255) = fin s := by
  letI := Binary32.binary32
  intro h
  have hS' : (S : ℝ) ≤ 255 := by exact_mod_cast hS
  obtain ⟨y, ey, y0, y1⟩ := Cie00Near.round_keep (r := (S : ℝ) / 255) Binary32.round_zero Cie00Near.round_one (by positivity) (by linarith)
  rw [lit_def, fin_div _ _ (by norm_num)] at h
  change fin s = Color.clamp (round32 (S / 255)) 1 0 at h
  rw [ey, AdjustSpec.clamp_unit, AdjustSpec.unit, min_eq_left y1, max_eq_left y0] at h
  rw [ey, h]

open Binary32 in
/-- The upper half of the bytes is rounded up to 24 binary places. -/
theorem upper {S : ℕ} (h1 : 128 ≤ S) (h2 : S ≤ 254) : round32 (S / 255) = fin ((65793 * S + 1) / 2 ^ 24) := by
  have c1 : (128 : ℝ) ≤ S := by exact_mod_cast h1
  have c2 : (S : ℝ) ≤ 254 := by exact_mod_cast h2
  have := round_eq (r := (S : ℝ) / 255) (65793 * S + 1) (-24) (by norm_num) (by norm_num) (by rw [abs_of_nonneg (by positivity)]; norm_num; linarith)
    (by rw [abs_of_nonneg (by positivity)]; norm_num; linarith) (by push_cast; rw [abs_lt]; norm_num; constructor <;> linarith)
  rw [this]
  push_cast
  norm_num
  ring

open Binary32 in
/-- A byte is never rounded below its first 24 binary places. -/
theorem lower {S : ℕ} {s : ℝ} (hS : S ≤ 255) (h : round32 (S / 255) = fin s) : 65793 * S / 2 ^ 24 ≤ s := by
  have hS' : (S : ℝ) ≤ 255 := by exact_mod_cast hS
  have h1 := round_exact (65793 * S) (-24) (by rw [abs_of_nonneg (by positivity)]; norm_num; omega) (by norm_num) (by rw [abs_of_nonneg (by positivity)]; push_cast; norm_num; linarith)
  have h2 := round_mono ((65793 * S : ℤ) * 2 ^ (-24 : ℤ)) (S / 255) (by push_cast; norm_num; linarith)
  rw [h1, h] at h2
  have h3 : ((65793 * S : ℤ) : ℝ) * 2 ^ (-24 : ℤ) ≤ s := by simpa using h2
  push_cast at h3
  norm_num at h3 ⊢
  linarith

open Binary32 in
/-- Two complementary bytes never add up to less than 1. -/
theorem complementary {S D : ℕ} {s d : ℝ} (h : S + D = 255) (hs : round32 (S / 255) = fin s) (hd : round32 (D / 255) = fin d) : 1 ≤ s + d := by
  have c : (S : ℝ) + D = 255 := by exact_mod_cast h
  have l1 := lower (by omega) hs
  have l2 := lower (by omega) hd
  by_cases a : S = 255
  · rw [a] at hs
    norm_num [Cie00Near.round_one] at hs
    have : (0 : ℝ) ≤ D := Nat.cast_nonneg _
    have : 0 ≤ 65793 * (D : ℝ) / 2 ^ 24 := by positivity
    linarith
  by_cases b : D = 255
  · rw [b] at hd
    norm_num [Cie00Near.round_one] at hd
    have : (0 : ℝ) ≤ S := Nat.cast_nonneg _
    have : 0 ≤ 65793 * (S : ℝ) / 2 ^ 24 := by positivity
    linarith
  by_cases k : 128 ≤ S
  · rw [upper k (by omega), fin.injEq] at hs
    norm_num at hs l2
    linarith
  · rw [upper (by omega) (by omega), fin.injEq] at hd
    norm_num at hd l1
    linarith

open Binary32 in
/-- The function of a mode at the deep channels of two bytes. -/
theorem channel (m : Mode) (hm : m.Plain) (sc dc : Color) (i : ℕ) {S D : ℕ} {s d : ℝ} (hS : S ≤ 255) (hD : D ≤ 255) (s01 : 0 ≤ s ∧ s ≤ 1) (d01 : 0 ≤ d ∧ d ≤ 1)
    (ns : |s - S / 255| ≤ 12 / 10 ^ 8) (nd : |d - D / 255| ≤ 12 / 10 ^ 8) : letI := Binary32.binary32
    fin s = Color.clamp (fin S / 255) 1 0 → fin d = Color.clamp (fin D / 255) 1 0 → sc.alpha - dc.alpha = fin 0 →
    ∃ v, Blend.Lim (Blend.modeF m sc dc i (fin s) (fin d)) v (25 / 1000000) ∧ |limit v - m.byte S D| ≤ 1 / 10 ^ 4 := by
  letI := Binary32.binary32
  haveI := Binary32.binary32_fine
  haveI := Binary32.binary32_small
  haveI := Binary32.binary32_int
  haveI := Binary32.binary32_half
  intro es ed hδ
  have rs := rounded hS es
  have rd := rounded hD ed
  have ends : ∀ {C : ℕ} {c : ℝ}, round32 (C / 255) = fin c → (C = 255 → c = 1) ∧ (C = 0 → c = 0) := by
    intro C c hc
    constructor
    · rintro rfl
      norm_num [Cie00Near.round_one] at hc
      exact hc.symm
    · rintro rfl
      norm_num [Binary32.round_zero] at hc
      exact hc.symm
  have hs := sample hS s01 ns (ends rs).1 (ends rs).2
  have hd := sample hD d01 nd (ends rd).1 (ends rd).2
  have bs := hs.b
  have bd := hd.b
  norm_num at bs bd
  have hj : m = .hard_mix → (s + d < 1 ↔ (S / 255 : ℝ) + D / 255 < 1) := by
    intro _
    rcases lt_trichotomy (S + D) 255 with h | h | h
    · have : (S : ℝ) + D ≤ 254 := by exact_mod_cast (by omega : S + D ≤ 254)
      exact ⟨fun _ => by linarith, fun _ => by linarith⟩
    · have c : (S : ℝ) + D = 255 := by exact_mod_cast h
      have := complementary h rs rd
      exact ⟨fun _ => by linarith, fun _ => by linarith⟩
    · have : (256 : ℝ) ≤ S + D := by exact_mod_cast (by omega : 256 ≤ S + D)
      exact ⟨fun _ => by linarith, fun _ => by linarith⟩
  have hf : m.Finite := by cases m <;> first | trivial | exact absurd hm id
  refine ⟨m.formula 0 i s d, ?_, mode_close m hm i hs hd hj⟩
  by_cases hv : m = .vivid_light
  · subst hv
    exact Blend.vivid_lim sc dc i s01.1 s01.2 d01.1 d01.2 (Binary32.round_again rs) (float_half (Binary32.round_again rs))
  by_cases ha : m.Apart s d
  · exact Blend.mode_lim m hf hv sc dc hδ i s01.1 s01.2 d01.1 d01.2 ha
  · have off : ∀ {c x : ℝ}, Sample c x → OffOne c := by
      intro c x h
      have := h.b
      norm_num at this
      rcases h.high with h1 | h1
      · exact Or.inl (h.top h1)
      · right; norm_num at h1 ⊢; linarith
    cases m with
    | color_dodge => exact absurd (off hs) ha
    | color_burn => exact absurd (off hd) ha
    | hard_mix =>
      have h : S + D = 255 := by
        by_contra hne
        apply ha
        change 1 / 500000 < |s + d - 1|
        rcases Nat.lt_or_gt_of_ne hne with h | h
        · have : (S : ℝ) + D ≤ 254 := by exact_mod_cast (by omega : S + D ≤ 254)
          rw [lt_abs]; right; norm_num; linarith
        · have : (256 : ℝ) ≤ S + D := by exact_mod_cast (by omega : 256 ≤ S + D)
          rw [lt_abs]; left; norm_num; linarith
      have h1 := complementary h rs rd
      have h2 : ¬ (fin s < (1 : Fl) - fin d) := by
        rw [one_def, fin_sub]
        change ¬ (fin s < round32 (1 - d))
        have := round_mono (1 - d) s (by linarith)
        rw [Binary32.round_again rs] at this
        obtain ⟨y, ey, -, -⟩ := Cie00Near.round_keep (r := 1 - d) Binary32.round_zero Cie00Near.round_one (by linarith [d01.2]) (by linarith [d01.1])
        rw [ey] at this ⊢
        simpa using this
      simp only [Blend.modeF, ColorBlend.hard_mix_func, if_neg h2, Mode.formula, if_neg (not_lt.mpr h1)]
      exact Blend.lim_of_near (by rw [one_def]; exact (near_fin 1).weaken (by norm_num))
    | dissolve rand => exact absurd hm id
    | custom f => exact absurd hm id
    | _ => exact absurd trivial ha

end Blend8

/-! ## C178: blend modes on opaque 8-bit pixels -/

/-- C178: in binary32 every blend mode with a fixed formula gives an opaque pixel of four bytes for two opaque pixels of four bytes, whichever regions are used.  Each channel is within
1/2 + 1/25 of 255 times the value of the formula at `S / 255` and `D / 255`, so it is that value rounded to a byte, up to ties. -/
theorem C178_modes (m : Mode) (hm : m.Plain) (w : World) (us ud : Bool) (s d : Color) (S0 S1 S2 D0 D1 D2 : ℕ) : letI := Binary32.binary32
    IsPixel8 s S0 S1 S2 255 → IsPixel8 d D0 D1 D2 255 → s.space = d.space →
    ∃ r X0 X1 X2, Yields (m.run us ud) w s d r ∧ IsPixel8 r X0 X1 X2 255 ∧ r.space = s.space ∧
      |(X0 : ℝ) - 255 * m.byte S0 D0| ≤ 1 / 2 + 1 / 25 ∧ |(X1 : ℝ) - 255 * m.byte S1 D1| ≤ 1 / 2 + 1 / 25 ∧ |(X2 : ℝ) - 255 * m.byte S2 D2| ≤ 1 / 2 + 1 / 25 := by
  letI := Binary32.binary32
  haveI := Binary32.binary32_fine
  haveI := Binary32.binary32_small
  haveI := Binary32.binary32_int
  intro hs hd hsp
  obtain ⟨s', s0, s1, s2, sa, vs, ps, sps, ⟨es0, es1, es2⟩, ⟨ns0, ns1, ns2⟩, -, hso⟩ := Pixel8.deep (w := w) hs
  obtain ⟨d', d0, d1, d2, da, vd, pd, spd, ⟨ed0, ed1, ed2⟩, ⟨nd0, nd1, nd2⟩, -, hdo⟩ := Pixel8.deep (w := w) hd
  rw [hso rfl] at ps
  rw [hdo rfl] at pd
  have hδ : s'.alpha - d'.alpha = fin 0 := by
    have h1 : s'.alpha = fin 1 := by rw [ps.eq, obj_alpha _ _ _ _ _ _ rfl]
    have h2 : d'.alpha = fin 1 := by rw [pd.eq, obj_alpha _ _ _ _ _ _ rfl]
    rw [h1, h2, fin_sub, sub_self, FloatModel.rnd_zero]
  obtain ⟨v0, l0, k0⟩ := Blend8.channel m hm s' d' 0 hs.bytes.red hd.bytes.red ⟨ps.rgb.r0, ps.rgb.r1⟩ ⟨pd.rgb.r0, pd.rgb.r1⟩ ns0 nd0 es0 ed0 hδ
  obtain ⟨v1, l1, k1⟩ := Blend8.channel m hm s' d' 1 hs.bytes.green hd.bytes.green ⟨ps.rgb.g0, ps.rgb.g1⟩ ⟨pd.rgb.g0, pd.rgb.g1⟩ ns1 nd1 es1 ed1 hδ
  obtain ⟨v2, l2, k2⟩ := Blend8.channel m hm s' d' 2 hs.bytes.blue hd.bytes.blue ⟨ps.rgb.b0, ps.rgb.b1⟩ ⟨pd.rgb.b0, pd.rgb.b1⟩ ns2 nd2 es2 ed2 hδ
  obtain ⟨r0, r1, r2, hy, n0, n1, n2⟩ := Blend.opaque_gives m w us ud s' d' s0 s1 s2 d0 d1 d2 ps pd (by rw [sps, spd, hsp]) l0 l1 l2
  have rng : ∀ (S D : ℕ), 0 ≤ m.byte S D ∧ m.byte S D ≤ 1 := fun S D => ⟨le_max_left _ _, max_le zero_le_one (min_le_left _ _)⟩
  have tot : ∀ {y v t : ℝ}, |y - limit v| ≤ 1 / 25000 → |limit v - t| ≤ 1 / 10 ^ 4 → |y - t| ≤ 14 / 10 ^ 5 := by
    intro y v t h1 h2
    have := abs_sub_le y (limit v) t
    norm_num at h1 h2 ⊢
    linarith
  have t0 := tot n0 k0
  have t1 := tot n1 k1
  have t2 := tot n2 k2
  have small : ∀ {y : ℝ} {S D : ℕ}, |y - m.byte S D| ≤ 14 / 10 ^ 5 → |y| ≤ 2 := by
    intro y S D h
    have := abs_le.mp h
    have := rng S D
    norm_num at *
    exact abs_le.mpr ⟨by linarith, by linarith⟩
  obtain ⟨r, X0, X1, X2, A, vr, pr, spr, m0, m1, m2, mA⟩ := Pixel8.store (w := w) (small t0) (small t1) (small t2) (a := 1) (by norm_num) (by norm_num) s'.space
  have eA : A = 255 := Pixel8.exact (x := 1) (mA.trans (by norm_num)) (by norm_num)
  rw [eA] at pr
  have fin' : ∀ {X S D : ℕ} {y : ℝ}, |y - m.byte S D| ≤ 14 / 10 ^ 5 → |(X : ℝ) - 255 * AdjustSpec.unit y| ≤ 1 / 2 + 1 / 10000 → |(X : ℝ) - 255 * m.byte S D| ≤ 1 / 2 + 1 / 25 := by
    intro X S D y h h2
    have h3 := abs_le.mp (Pixel8.unit_in (rng S D) h)
    have h2 := abs_le.mp h2
    norm_num at h3
    exact abs_le.mpr ⟨by linarith, by linarith⟩
  refine ⟨r, X0, X1, X2, C57_any_type m ?_ w us ud .rgbTrue .rgbTrue (by simp) (by simp) s d s' d' _ r hs.bytes.col hd.bytes.col hsp vs vd hy vr, pr, by rw [spr, sps], fin' t0 m0, fin' t1 m1, fin' t2 m2⟩
  rintro rand rfl
  exact hm

/-- A byte within 1/2 + 1/25 of a byte is that byte. -/
theorem Blend8.exact {X N : ℕ} {x : ℝ} (h : |(X : ℝ) - 255 * x| ≤ 1 / 2 + 1 / 25) (hx : 255 * x = N) : X = N := by
  rw [hx] at h
  have h1 : |((X : ℤ) - N : ℤ)| < 1 := by
    have : |(((X : ℤ) - N : ℤ) : ℝ)| < 1 := by push_cast; exact h.trans_lt (by norm_num)
    exact_mod_cast this
  have := Int.abs_lt_one_iff.mp h1
  omega

/-- The value of a mode that gives bytes. -/
theorem Blend8.whole (m : Mode) (f : ℕ → ℕ → ℕ) (hf : m.bytes = some f) {S D : ℕ} (hS : S ≤ 255) (hD : D ≤ 255) : 255 * m.byte S D = f S D := by
  have lim : ∀ x : ℝ, 255 * limit x = max 0 (min 255 (255 * x)) := by
    intro x
    unfold limit
    rw [mul_max_of_nonneg _ _ (by norm_num), mul_min_of_nonneg _ _ (by norm_num)]
    norm_num
  have cS : (S : ℝ) ≤ 255 := by exact_mod_cast hS
  have cD : (D : ℝ) ≤ 255 := by exact_mod_cast hD
  have pS : (0 : ℝ) ≤ S := Nat.cast_nonneg _
  have pD : (0 : ℝ) ≤ D := Nat.cast_nonneg _
  have cut : ∀ (z : ℤ) (n : ℕ), (n : ℤ) = max 0 (min 255 z) → max 0 (min (255 : ℝ) z) = n := by
    intro z n h
    have := congrArg (Int.cast (R := ℝ)) h
    push_cast at this
    exact this.symm
  have half : (S / 255 : ℝ) ≤ 1 / 2 ↔ S ≤ 127 := by
    constructor
    · intro h
      have : (S : ℝ) < 128 := by linarith
      have : S < 128 := by exact_mod_cast this
      omega
    · intro h
      have : (S : ℝ) ≤ 127 := by exact_mod_cast h
      linarith
  unfold Mode.byte
  rw [lim]
  cases m <;> simp only [Mode.bytes, Option.some.injEq, reduceCtorEq] at hf <;> subst hf <;> simp only [Mode.formula]
  case normal => rw [show 255 * (S / 255 : ℝ) = (S : ℤ) by push_cast; ring]; exact cut _ _ (by omega)
  case darken => rw [mul_min_of_nonneg _ _ (by norm_num), show 255 * (S / 255 : ℝ) = S by ring, show 255 * (D / 255 : ℝ) = D by ring,
    show min (S : ℝ) D = ((min S D : ℕ) : ℤ) by push_cast; rfl]; exact cut _ _ (by omega)
  case lighten => rw [mul_max_of_nonneg _ _ (by norm_num), show 255 * (S / 255 : ℝ) = S by ring, show 255 * (D / 255 : ℝ) = D by ring,
    show max (S : ℝ) D = ((max S D : ℕ) : ℤ) by push_cast; rfl]; exact cut _ _ (by omega)
  case linear_dodge => rw [show 255 * (S / 255 + D / 255 : ℝ) = ((S + D : ℕ) : ℤ) by push_cast; ring]; exact cut _ _ (by omega)
  case plus_lighter => rw [show 255 * (S / 255 + D / 255 : ℝ) = ((S + D : ℕ) : ℤ) by push_cast; ring]; exact cut _ _ (by omega)
  case linear_burn => rw [show 255 * (S / 255 + D / 255 - 1 : ℝ) = ((S + D - 255 : ℤ)) by push_cast; ring]; exact cut _ _ (by omega)
  case plus_darker => rw [show 255 * (S / 255 + D / 255 - 1 : ℝ) = ((S + D - 255 : ℤ)) by push_cast; ring]; exact cut _ _ (by omega)
  case subtract => rw [show 255 * (S / 255 - D / 255 : ℝ) = ((S - D : ℤ)) by push_cast; ring]; exact cut _ _ (by omega)
  case linear_light =>
    rw [show (if (S / 255 : ℝ) ≤ 1 / 2 then (D / 255 : ℝ) + 2 * (S / 255) - 1 else D / 255 + (2 * (S / 255) - 1)) = D / 255 + 2 * (S / 255) - 1 by split_ifs <;> ring,
      show 255 * (D / 255 + 2 * (S / 255) - 1 : ℝ) = ((D + 2 * S - 255 : ℤ)) by push_cast; ring]
    exact cut _ _ (by omega)
  case pin_light =>
    by_cases h : S ≤ 127
    · rw [if_pos h, if_pos (half.mpr h), mul_min_of_nonneg _ _ (by norm_num), show 255 * (D / 255 : ℝ) = D by ring, show 255 * (2 * (S / 255) : ℝ) = 2 * S by ring,
        show min (D : ℝ) (2 * S) = ((min D (2 * S) : ℕ) : ℤ) by push_cast; rfl]
      exact cut _ _ (by omega)
    · rw [if_neg h, if_neg (fun h' => h (half.mp h')), mul_max_of_nonneg _ _ (by norm_num), show 255 * (D / 255 : ℝ) = D by ring, show 255 * (2 * (S / 255) - 1 : ℝ) = 2 * S - 255 by ring,
        show max (D : ℝ) (2 * S - 255) = ((max D (2 * S - 255) : ℤ)) by push_cast; rfl]
      exact cut _ _ (by omega)
  case hard_mix =>
    have : (S / 255 + D / 255 : ℝ) < 1 ↔ S + D < 255 := by
      rw [← add_div, div_lt_one (by norm_num)]
      exact_mod_cast Iff.rfl
    by_cases h : S + D < 255
    · rw [if_pos h, if_pos (this.mpr h)]; norm_num
    · rw [if_neg h, if_neg (fun h' => h (this.mp h'))]; norm_num
  case difference =>
    rw [← abs_of_pos (by norm_num : (0 : ℝ) < 255), ← abs_mul, abs_of_pos (by norm_num : (0 : ℝ) < 255), show 255 * (S / 255 - D / 255 : ℝ) = S - D by ring,
      show |(S : ℝ) - D| = ((|(S : ℤ) - D| : ℤ)) by push_cast; rfl]
    exact cut _ _ (by rcases abs_cases ((S : ℤ) - D) with h | h <;> omega)

/-- C178: for the modes whose formula maps bytes to bytes the result has exactly these bytes: darken and lighten pick bytes, linear_dodge and plus_lighter add and stop at 255, linear_burn,
plus_darker and subtract stop at 0, difference is the distance of the bytes, hard_mix is 255 exactly where the bytes add up to 255 or more. -/
theorem C178_exact (m : Mode) (f : ℕ → ℕ → ℕ) (hf : m.bytes = some f) (w : World) (us ud : Bool) (s d : Color) (S0 S1 S2 D0 D1 D2 : ℕ) : letI := Binary32.binary32
    IsPixel8 s S0 S1 S2 255 → IsPixel8 d D0 D1 D2 255 → s.space = d.space → ∃ r, Yields (m.run us ud) w s d r ∧ IsPixel8 r (f S0 D0) (f S1 D1) (f S2 D2) 255 ∧ r.space = s.space := by
  letI := Binary32.binary32
  intro hs hd hsp
  obtain ⟨r, X0, X1, X2, hy, pr, sp, n0, n1, n2⟩ := C178_modes m (by cases m <;> first | trivial | simp [Mode.bytes] at hf) w us ud s d S0 S1 S2 D0 D1 D2 hs hd hsp
  rw [Blend8.exact n0 (Blend8.whole m f hf hs.bytes.red hd.bytes.red), Blend8.exact n1 (Blend8.whole m f hf hs.bytes.green hd.bytes.green),
    Blend8.exact n2 (Blend8.whole m f hf hs.bytes.blue hd.bytes.blue)] at pr
  exact ⟨r, hy, pr, sp⟩

/-- C178: blending with the neutral grey of a mode (white for multiply, darken, linear_burn, plus_darker and divide, black for screen, lighten, linear_dodge, plus_lighter, difference,
exclusion and color_dodge) changes no byte of the destination. -/
theorem C178_neutral (m : Mode) (N : ℕ) (hN : m.neutral = some N) (w : World) (us ud : Bool) (s d : Color) (D0 D1 D2 : ℕ) : letI := Binary32.binary32
    IsPixel8 s N N N 255 → IsPixel8 d D0 D1 D2 255 → s.space = d.space → ∃ r, Yields (m.run us ud) w s d r ∧ IsPixel8 r D0 D1 D2 255 := by
  letI := Binary32.binary32
  intro hs hd hsp
  obtain ⟨r, X0, X1, X2, hy, pr, sp, n0, n1, n2⟩ := C178_modes m (by cases m <;> first | trivial | simp [Mode.neutral] at hN) w us ud s d N N N D0 D1 D2 hs hd hsp
  have val : ∀ {D : ℕ}, D ≤ 255 → 255 * m.byte N D = D := by
    intro D hD
    have cD : (D : ℝ) ≤ 255 := by exact_mod_cast hD
    have pD : (0 : ℝ) ≤ D / 255 := by positivity
    have qD : (D / 255 : ℝ) ≤ 1 := by linarith
    have key : limit (m.formula 0 0 (N / 255) (D / 255)) = limit (D / 255) := by
      cases m <;> simp only [Mode.neutral, Option.some.injEq, reduceCtorEq] at hN <;> subst hN <;> simp only [Mode.formula]
      case difference => simp [abs_of_nonneg pD]
      case color_dodge =>
        by_cases h : D = 0
        · simp [h]
        · simp [h, Blend8.limit_min]
      case divide =>
        by_cases h : D = 0
        · simp [h]
        · simp [h]
      all_goals norm_num [pD, qD]
    rw [Mode.byte, key, Blend8.limit_of pD qD]
    ring
  rw [Blend8.exact n0 (val hd.bytes.red), Blend8.exact n1 (val hd.bytes.green), Blend8.exact n2 (val hd.bytes.blue)] at pr
  exact ⟨r, hy, pr⟩

/-- Case: multiply, hard_mix of complementary bytes, the neutral white of divide. -/
example (w : World) : letI := Binary32.binary32
    (∃ r X1 X2, Yields (ColorBlend.multiply true true) w (Color.mkRgbTrue (fin (51 : ℕ)) (fin (34 : ℕ)) (fin (56 : ℕ)) (fin (255 : ℕ)) none)
      (Color.mkRgbTrue (fin (200 : ℕ)) (fin (221 : ℕ)) (fin (7 : ℕ)) (fin (255 : ℕ)) none) r ∧ IsPixel8 r 40 X1 X2 255) ∧
    (∃ r, Yields (ColorBlend.hard_mix true false) w (Color.mkRgbTrue (fin (51 : ℕ)) (fin (34 : ℕ)) (fin (56 : ℕ)) (fin (255 : ℕ)) none)
      (Color.mkRgbTrue (fin (200 : ℕ)) (fin (221 : ℕ)) (fin (255 : ℕ)) (fin (255 : ℕ)) none) r ∧ IsPixel8 r 0 255 255 255) ∧
    ∃ r, Yields (ColorBlend.divide true true) w (Color.mkRgbTrue (fin (255 : ℕ)) (fin (255 : ℕ)) (fin (255 : ℕ)) (fin (255 : ℕ)) none)
      (Color.mkRgbTrue (fin (200 : ℕ)) (fin (221 : ℕ)) (fin (7 : ℕ)) (fin (255 : ℕ)) none) r ∧ IsPixel8 r 200 221 7 255 := by
  letI := Binary32.binary32
  have h1 := isPixel8_mk 51 34 56 255 (by norm_num) (by norm_num) (by norm_num) (by norm_num) none
  have h2 := isPixel8_mk 200 221 7 255 (by norm_num) (by norm_num) (by norm_num) (by norm_num) none
  have h3 := isPixel8_mk 200 221 255 255 (by norm_num) (by norm_num) (by norm_num) (by norm_num) none
  have h4 := isPixel8_mk 255 255 255 255 (by norm_num) (by norm_num) (by norm_num) (by norm_num) none
  obtain ⟨r, X0, X1, X2, hy, pr, -, n0, -⟩ := C178_modes .multiply trivial w true true _ _ 51 34 56 200 221 7 h1 h2 rfl
  rw [Blend8.exact (N := 40) n0 (by norm_num [Mode.byte, Mode.formula, limit])] at pr
  obtain ⟨r', hy', pr', -⟩ := C178_exact .hard_mix _ rfl w true false _ _ 51 34 56 200 221 255 h1 h3 rfl
  obtain ⟨r'', hy'', pr''⟩ := C178_neutral .divide 255 rfl w true true _ _ 200 221 7 h4 h2 rfl
  exact ⟨⟨r, X1, X2, hy, pr⟩, ⟨r', hy', by simpa using pr'⟩, r'', hy'', pr''⟩
