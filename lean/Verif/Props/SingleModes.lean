import Verif.Props.Single2

/-!
# The remaining blend modes in single precision (C133)

vivid_light divides by one minus twice the source.  That is accurate only if the doubled source is, so the channels have to be numbers of the arithmetic, as they always are in the program.
The modes that leave 0..1 are limited before the division by alpha.
-/

open Outcome Fl Prog ObjectSpec ConvSpec BlendSpec Hue

/-- Doubling, and subtracting one half from a number in [1/2, 1], are exact. -/
class HalfExact [FloatModel] : Prop where
  double : ∀ r : ℝ, rnd r = .fin r → 0 ≤ r → r ≤ 1 / 2 → rnd (2 * r) = .fin (2 * r)
  less_half : ∀ r : ℝ, rnd r = .fin r → 1 / 2 ≤ r → r ≤ 1 → rnd (r - 1 / 2) = .fin (r - 1 / 2)

instance [FloatModel] [ExactModel] : HalfExact := ⟨fun _ _ _ _ => ExactModel.rnd_eq _, fun _ _ _ _ => ExactModel.rnd_eq _⟩

namespace Binary32

/-- The numbers of binary32 are small multiples of powers of two. -/
theorem float_form {r : ℝ} (h : round32 r = .fin r) : ∃ m e : ℤ, r = m * 2 ^ e ∧ |m| ≤ 2 ^ 24 ∧ -149 ≤ e ∧ e = ulpExp r := by
  have hv : value r = r := by
    unfold round32 at h
    split_ifs at h with h1 h2
    simpa using h
  refine ⟨rne (r / 2 ^ ulpExp r), ulpExp r, hv.symm, ?_, by unfold ulpExp; omega, rfl⟩
  by_cases h0 : r = 0
  · subst h0
    have : rne (0 / 2 ^ ulpExp 0) = 0 := by rw [zero_div]; exact_mod_cast rne_int 0
    rw [this]; norm_num
  have hm : r = rne (r / 2 ^ ulpExp r) * 2 ^ ulpExp r := hv.symm
  set m := rne (r / 2 ^ ulpExp r)
  set e := ulpExp r with he
  have l2 : |r| < 2 ^ (e + 24) := by
    have := Int.lt_zpow_succ_log_self (b := 2) (by norm_num) |r|
    refine lt_of_lt_of_le (by exact_mod_cast this) (zpow_le_zpow_right₀ (by norm_num) ?_)
    rw [he]; unfold ulpExp; omega
  rw [hm, abs_mul, abs_of_pos (two_pos e), zpow_add₀ (by norm_num), mul_comm ((2 : ℝ) ^ e)] at l2
  have := lt_of_mul_lt_mul_right l2 (two_pos e).le
  norm_num at this
  have : (|m| : ℤ) < 16777216 := by exact_mod_cast this
  norm_num
  exact this.le

theorem binary32_half : @HalfExact binary32 :=
  letI := binary32
  { double := fun r h h0 h1 => by
      obtain ⟨m, e, hr, hm, he, -⟩ := float_form h
      have e2 : 2 * r = m * 2 ^ (e + 1) := by rw [hr, zpow_add₀ (by norm_num)]; ring
      have hb : |(m : ℝ) * 2 ^ (e + 1)| < 2 ^ 128 := by
        rw [← e2, abs_of_nonneg (by linarith)]; norm_num; linarith
      change round32 _ = _
      rw [e2]
      exact round_exact m (e + 1) hm (by omega) hb
    less_half := fun r h h0 h1 => by
      obtain ⟨m, e, hr, hm, he, hu⟩ := float_form h
      have hpos : 0 < |r| := by rw [abs_of_pos (by linarith)]; linarith
      have habs : |r| = r := abs_of_nonneg (by linarith)
      have l1 : (-1 : ℤ) ≤ Int.log 2 |r| := (Int.zpow_le_iff_le_log (b := 2) (by norm_num) hpos).mp (by rw [habs]; norm_num; linarith)
      have l2 : Int.log 2 |r| < 1 := (Int.lt_zpow_iff_log_lt (b := 2) (by norm_num) hpos).mp (by rw [habs]; norm_num; linarith)
      have he1 : -24 ≤ e ∧ e ≤ -23 := by rw [hu]; unfold ulpExp; omega
      have key : ∃ k : ℤ, r - 1 / 2 = k * 2 ^ (-24 : ℤ) := by
        rcases (show e = -24 ∨ e = -23 by omega) with he | he
        · refine ⟨m - 2 ^ 23, ?_⟩
          rw [hr, he]; push_cast; norm_num; ring
        · refine ⟨2 * m - 2 ^ 23, ?_⟩
          rw [hr, he]; push_cast; norm_num; ring
      obtain ⟨k, hk⟩ := key
      have hk0 : |k| ≤ 2 ^ 24 := by
        have : |(k : ℝ)| ≤ 2 ^ 24 := by
          have hk' : (k : ℝ) = (r - 1 / 2) * 2 ^ 24 := by rw [hk]; norm_num; ring
          rw [hk', abs_of_nonneg (by apply mul_nonneg; linarith; norm_num)]
          norm_num; linarith
        exact_mod_cast this
      change round32 _ = _
      rw [hk]
      refine round_exact k (-24) hk0 (by norm_num) ?_
      rw [← hk, abs_of_nonneg (by linarith)]; norm_num; linarith }

/-- There are no numbers of binary32 close to one half. -/
theorem float_half {r : ℝ} (h : round32 r = .fin r) : r = 1 / 2 ∨ 1 / 2 ^ 30 ≤ |r - 1 / 2| := by
  by_contra hc
  push Not at hc
  obtain ⟨h0, h1⟩ := hc
  rw [abs_lt] at h1
  norm_num at h1
  obtain ⟨m, e, hr, hm, he, hu⟩ := float_form h
  have hpos : 0 < |r| := by rw [abs_of_pos (by linarith)]; linarith
  have habs : |r| = r := abs_of_nonneg (by linarith)
  have l1 : (-2 : ℤ) ≤ Int.log 2 |r| := (Int.zpow_le_iff_le_log (b := 2) (by norm_num) hpos).mp (by rw [habs]; norm_num; linarith)
  have l2 : Int.log 2 |r| < 0 := (Int.lt_zpow_iff_log_lt (b := 2) (by norm_num) hpos).mp (by rw [habs]; norm_num; linarith)
  have he1 : -25 ≤ e ∧ e ≤ -24 := by rw [hu]; unfold ulpExp; omega
  have key : ∃ k : ℤ, r - 1 / 2 = k * 2 ^ (-25 : ℤ) := by
    rcases (show e = -25 ∨ e = -24 by omega) with he | he
    · refine ⟨m - 2 ^ 24, ?_⟩
      rw [hr, he]; push_cast; norm_num; ring
    · refine ⟨2 * m - 2 ^ 24, ?_⟩
      rw [hr, he]; push_cast; norm_num; ring
  obtain ⟨k, hk⟩ := key
  have k0 : k ≠ 0 := by
    rintro rfl
    exact h0 (by simp at hk; linarith)
  have k1 : (k : ℝ) < 1 ∧ -1 < (k : ℝ) := by
    norm_num at hk
    constructor <;> linarith
  have : k < 1 ∧ -1 < k := ⟨by exact_mod_cast k1.1, by exact_mod_cast k1.2⟩
  omega

end Binary32

namespace Blend

/-- An approximation of a quotient stays one when it is limited. -/
theorem limit_rel {q Q ε : ℝ} (h0 : 0 ≤ q) (h : |Q - q| ≤ q * (5 / 1000000) + ε) (he : ε ≤ 1 / 1000000) :
    |limit Q - limit q| ≤ 11 / 1000000 ∧ |limit (1 - Q) - limit (1 - q)| ≤ 11 / 1000000 := by
  by_cases h2 : q ≤ 2
  · have hq : |Q - q| ≤ 11 / 1000000 := by linarith
    refine ⟨limit_close hq, limit_close ?_⟩
    rwa [show 1 - Q - (1 - q) = -(Q - q) by ring, abs_neg]
  · rw [not_le] at h2
    rw [abs_le] at h
    have hQ : 1 ≤ Q := by linarith
    have e1 : ∀ x : ℝ, 1 ≤ x → limit x = 1 ∧ limit (1 - x) = 0 := by
      intro x hx
      constructor
      · rw [limit, min_eq_left hx]; norm_num
      · rw [limit, min_eq_right (by linarith), max_eq_left (by linarith)]
    rw [(e1 Q hQ).1, (e1 q (by linarith)).1, (e1 Q hQ).2, (e1 q (by linarith)).2]
    norm_num

section
variable [FloatModel] [SmallError] [IntExact]

theorem lim_rnd_of {y v ε : ℝ} (h : |limit y - limit v| ≤ ε) : Lim (rnd y) v (ε + 2 / 1000000) := by
  obtain ⟨h1, z, e, hz⟩ := lim_rnd y
  refine ⟨h1, z, e, ?_⟩
  have := abs_sub_le z (limit y) (limit v)
  linarith

omit [SmallError] [IntExact] in
/-- The quotient of two approximations. -/
theorem quot_rel {n t N T : ℝ} (hn : 0 ≤ n) (hn1 : n ≤ 1) (ht : 1 / 2 ^ 29 ≤ t) (hN : |N - n| ≤ n / 2 ^ 20 + 1 / 2 ^ 100) (hT : |T - t| ≤ t / 2 ^ 20 + 1 / 2 ^ 100) :
    0 < T ∧ |N / T - n / t| ≤ n / t * (2 / 1000000) + 1 / 2 ^ 60 := by
  have t0 : 0 < t := lt_of_lt_of_le (by norm_num) ht
  rw [abs_le] at hT
  have hT0 : t / 2 ≤ T := by norm_num at *; linarith
  have T0 : 0 < T := by linarith
  refine ⟨T0, ?_⟩
  have e : N / T - n / t = ((N - n) - n / t * (T - t)) / T := by field_simp; ring
  have hq : 0 ≤ n / t := by positivity
  have hnq : n = n / t * t := by field_simp
  rw [e, abs_div, abs_of_pos T0, div_le_iff₀ T0]
  have h1 : |(N - n) - n / t * (T - t)| ≤ (n / 2 ^ 20 + 1 / 2 ^ 100) + n / t * (t / 2 ^ 20 + 1 / 2 ^ 100) := by
    refine (abs_sub _ _).trans (add_le_add hN ?_)
    rw [abs_mul, abs_of_nonneg hq]
    gcongr
    rw [abs_le]; exact hT
  refine h1.trans ?_
  have h2 : n / t * (t / 2 ^ 20 + 1 / 2 ^ 100) = n / 2 ^ 20 + n / t / 2 ^ 100 := by field_simp
  rw [h2]
  have hqT : n / t * t * (1 - 1 / 10000) ≤ n / t * T := by
    rw [mul_assoc]; gcongr; norm_num at *; linarith
  have hTq : (1 : ℝ) / 2 ^ 30 ≤ T := by norm_num at *; linarith
  have hqs : n / t * (1 / 2 ^ 30) ≤ n / t * T := by gcongr
  have e2 : (n / t * (2 / 1000000) + 1 / 2 ^ 60) * T = n / t * T * (2 / 1000000) + T / 2 ^ 60 := by ring
  rw [e2]
  rw [← hnq] at hqT
  norm_num at *
  linarith

/-- vivid_light of channels that are numbers of the arithmetic. -/
theorem vivid_lim [HalfExact] (sc dc : Color) (i : Nat) {s d : ℝ} (s0 : 0 ≤ s) (s1 : s ≤ 1) (d0 : 0 ≤ d) (d1 : d ≤ 1) (hs : rnd s = fin s) (ha : s = 1 / 2 ∨ 1 / 2 ^ 30 ≤ |s - 1 / 2|) :
    Lim (modeF .vivid_light sc dc i (fin s) (fin d)) (Mode.vivid_light.formula 0 i s d) (25 / 1000000) := by
  have half : (0.5 : ℝ) = 1 / 2 := by norm_num
  simp only [modeF, ColorBlend.vivid_light_func, Mode.formula, fin_le, half, zero_def, one_def, lit_def, feq_fin]
  split_ifs with h1 h2 h3 h4 h5
  · exact lim_of_near ((near_fin 0).weaken (by norm_num))
  · exact lim_of_near ((near_fin 1).weaken (by norm_num))
  · have hh : 1 / 2 ^ 30 ≤ 1 / 2 - s := by
      rcases ha with h | h
      · exact absurd h h3
      · rwa [abs_sub_comm, abs_of_nonneg (by linarith)] at h
    have ht : (1 : ℝ) / 2 ^ 29 ≤ 1 - 2 * s := by norm_num at *; linarith
    obtain ⟨T, eT, nT⟩ := SmallError.rnd_near (1 - 2 * s) (by rw [abs_of_nonneg (le_trans (by norm_num) ht)]; norm_num; linarith)
    rw [abs_of_nonneg (le_trans (by norm_num) ht)] at nT
    obtain ⟨T0, hq⟩ := quot_rel (n := d) (N := d) d0 d1 ht (by rw [sub_self, abs_zero]; positivity) nT
    rw [fin_mul, HalfExact.double s hs s0 h1, fin_sub, eT, fin_div _ _ T0.ne']
    have q0 : 0 ≤ d / (1 - 2 * s) := div_nonneg d0 (le_trans (by norm_num) ht)
    refine (lim_rnd_of (limit_rel q0 (ε := 1 / 2 ^ 60) (hq.trans ?_) (by norm_num)).1).weaken (by norm_num)
    gcongr
    norm_num
  · exact lim_of_near ((near_fin 1).weaken (by norm_num))
  · exact lim_of_near ((near_fin 0).weaken (by norm_num))
  · have h1 := not_le.mp h1
    have hh : 1 / 2 ^ 30 ≤ s - 1 / 2 := by
      rcases ha with h | h
      · linarith
      · rwa [abs_of_nonneg (by linarith)] at h
    have ht : (1 : ℝ) / 2 ^ 29 ≤ 2 * (s - 1 / 2) := by norm_num at *; linarith
    have e1 := HalfExact.less_half s hs h1.le s1
    have e2 := HalfExact.double (s - 1 / 2) e1 (by linarith) (by linarith)
    have n0 : 0 ≤ 1 - d := by linarith
    obtain ⟨N, eN, nN⟩ := SmallError.rnd_near (1 - d) (by rw [abs_of_nonneg n0]; norm_num; linarith)
    rw [abs_of_nonneg n0] at nN
    obtain ⟨T0, hq⟩ := quot_rel (T := 2 * (s - 1 / 2)) n0 (by linarith) ht nN (by rw [sub_self, abs_zero]; positivity)
    have q0 : 0 ≤ (1 - d) / (2 * (s - 1 / 2)) := div_nonneg n0 T0.le
    have q1 : (1 - d) / (2 * (s - 1 / 2)) ≤ 2 ^ 29 := by
      rw [div_le_iff₀ T0]; norm_num at *; linarith
    set q := (1 - d) / (2 * (s - 1 / 2)) with hqd
    have hp : |N / (2 * (s - 1 / 2))| ≤ q * (1 + 2 / 1000000) + 1 / 2 ^ 60 := by
      have := abs_add_le (N / (2 * (s - 1 / 2)) - q) q
      rw [sub_add_cancel, abs_of_nonneg q0] at this
      linarith
    obtain ⟨Q, eQ, nQ⟩ := SmallError.rnd_near (N / (2 * (s - 1 / 2))) (hp.trans (by norm_num at *; linarith))
    rw [fin_sub, fin_sub, eN, e1, fin_mul, e2, fin_div _ _ T0.ne', eQ, fin_sub]
    have hQ := abs_sub_le Q (N / (2 * (s - 1 / 2))) q
    rw [show 2 * s - 1 = 2 * (s - 1 / 2) by ring, ← hqd]
    refine (lim_rnd_of (limit_rel q0 (ε := 1 / 2 ^ 50) ?_ (by norm_num)).2).weaken (by norm_num)
    refine hQ.trans ((add_le_add nQ hq).trans ?_)
    have : |N / (2 * (s - 1 / 2))| / 2 ^ 20 ≤ (q * (1 + 2 / 1000000) + 1 / 2 ^ 60) / 2 ^ 20 := by gcongr
    norm_num at *
    linarith

end

end Blend

section
variable [FloatModel] [SmallError] [IntExact]

/-- C133 for vivid_light and opaque colours: if the source channels are numbers of the arithmetic that are not immediately next to one half, the channels are those of the formula limited
to 0..1 up to 1 / 25000, alpha is exactly 1. -/
theorem C133_vivid_light [HalfExact] (w : World) (us ud : Bool) (s d : Color) (s0 s1 s2 d0 d1 d2 : ℝ) (hs : IsPixel s s0 s1 s2 1) (hd : IsPixel d d0 d1 d2 1) (hsp : s.space = d.space)
    (f0 : rnd s0 = fin s0) (f1 : rnd s1 = fin s1) (f2 : rnd s2 = fin s2) (a0 : s0 = 1 / 2 ∨ 1 / 2 ^ 30 ≤ |s0 - 1 / 2|) (a1 : s1 = 1 / 2 ∨ 1 / 2 ^ 30 ≤ |s1 - 1 / 2|)
    (a2 : s2 = 1 / 2 ∨ 1 / 2 ^ 30 ≤ |s2 - 1 / 2|) :
    ∃ r0 r1 r2, Yields (ColorBlend.vivid_light us ud) w s d (obj .rgbDeep r0 r1 r2 (fin 1) s.space) ∧
      |r0 - limit (Mode.vivid_light.formula 0 0 s0 d0)| ≤ 1 / 25000 ∧ |r1 - limit (Mode.vivid_light.formula 0 1 s1 d1)| ≤ 1 / 25000 ∧
      |r2 - limit (Mode.vivid_light.formula 0 2 s2 d2)| ≤ 1 / 25000 :=
  Blend.opaque_gives .vivid_light w us ud s d s0 s1 s2 d0 d1 d2 hs hd hsp (Blend.vivid_lim s d 0 hs.rgb.r0 hs.rgb.r1 hd.rgb.r0 hd.rgb.r1 f0 a0)
    (Blend.vivid_lim s d 1 hs.rgb.g0 hs.rgb.g1 hd.rgb.g0 hd.rgb.g1 f1 a1) (Blend.vivid_lim s d 2 hs.rgb.b0 hs.rgb.b1 hd.rgb.b0 hd.rgb.b1 f2 a2)

end

/-- C133 for opaque colours in binary32, every mode: if the channels of the source are binary32 numbers, as they always are, and the sum of the channels is not next to the jump of hard_mix,
the channels are those of the formula limited to 0..1 up to 1 / 25000 and alpha is exactly 1. -/
theorem C133_opaque_binary32 (m : Mode) (w : World) (us ud : Bool) (s d : Color) (s0 s1 s2 d0 d1 d2 : ℝ) (hs : IsPixel s s0 s1 s2 1) (hd : IsPixel d d0 d1 d2 1) (hsp : s.space = d.space)
    (f0 : Binary32.round32 s0 = fin s0) (f1 : Binary32.round32 s1 = fin s1) (f2 : Binary32.round32 s2 = fin s2) (a0 : m.Apart s0 d0) (a1 : m.Apart s1 d1) (a2 : m.Apart s2 d2) : letI := Binary32.binary32
    ∀ _ : m.Finite, ∃ r0 r1 r2, Yields (m.run us ud) w s d (obj .rgbDeep r0 r1 r2 (fin 1) s.space) ∧
      |r0 - limit (m.formula 0 0 s0 d0)| ≤ 1 / 25000 ∧ |r1 - limit (m.formula 0 1 s1 d1)| ≤ 1 / 25000 ∧ |r2 - limit (m.formula 0 2 s2 d2)| ≤ 1 / 25000 := by
  letI := Binary32.binary32
  haveI := Binary32.binary32_small
  haveI := Binary32.binary32_int
  haveI := Binary32.binary32_half
  intro hf
  by_cases hm : m = .vivid_light
  · subst hm
    exact C133_vivid_light w us ud s d s0 s1 s2 d0 d1 d2 hs hd hsp f0 f1 f2 (Binary32.float_half f0) (Binary32.float_half f1) (Binary32.float_half f2)
  · exact C133_opaque_partial m hf hm w us ud s d s0 s1 s2 d0 d1 d2 hs hd hsp a0 a1 a2

/-- Case: in single precision, vivid_light with a quarter, with the number just below one half, and with three quarters. -/
example (w : World) : letI := Binary32.binary32
    ∃ r0 r1 r2, Yields (ColorBlend.vivid_light true true) w (obj .rgbDeep 0.25 (1 / 2 - 1 / 2 ^ 25) 0.75 (fin 1) none) (obj .rgbDeep 0.25 (1 / 2 ^ 25) 0.75 (fin 1) none) (obj .rgbDeep r0 r1 r2 (fin 1) none) ∧
      |r0 - 0.5| ≤ 1 / 25000 ∧ |r1 - 0.5| ≤ 1 / 25000 ∧ |r2 - 0.5| ≤ 1 / 25000 := by
  letI := Binary32.binary32
  have g : ∀ (k e : ℤ) (r : ℝ), r = k * 2 ^ e → |k| ≤ 2 ^ 24 → -149 ≤ e → |r| < 2 ^ 128 → Binary32.round32 r = fin r := by
    intro k e r hr hk he hb
    rw [hr] at hb ⊢
    exact Binary32.round_exact k e hk he hb
  obtain ⟨r0, r1, r2, h1, h2, h3, h4⟩ := C133_opaque_binary32 .vivid_light w true true _ _ 0.25 (1 / 2 - 1 / 2 ^ 25) 0.75 0.25 (1 / 2 ^ 25) 0.75
    (isPixel_obj none (by norm_num) (by norm_num) (by norm_num) (by norm_num)) (isPixel_obj none (by norm_num) (by norm_num) (by norm_num) (by norm_num)) rfl
    (g 1 (-2) _ (by norm_num) (by norm_num) (by norm_num) (by norm_num [abs_lt])) (g (2 ^ 24 - 1) (-25) _ (by norm_num) (by norm_num) (by norm_num) (by norm_num [abs_lt]))
    (g 3 (-2) _ (by norm_num) (by norm_num) (by norm_num) (by norm_num [abs_lt])) trivial trivial trivial trivial
  norm_num [Mode.formula, limit] at h2 h3 h4
  exact ⟨r0, r1, r2, h1, by norm_num; exact h2, by norm_num; exact h3, by norm_num; exact h4⟩

/-! ## Translucent colours -/

namespace BlendSpec

/-- The modes whose formula stays between -1 and 2. -/
def Mode.Wide : Mode → Prop
  | .linear_dodge | .linear_burn | .linear_light | .hard_mix | .subtract | .plus_lighter | .plus_darker | .dissolve _ => True
  | m => m.Bounded

/-- dissolve looks at the sign of the difference of the alpha values. -/
def Mode.SameSide : Mode → ℝ → ℝ → Prop
  | .dissolve _, sa, da => sa = da ∨ 1 / 2 ^ 60 ≤ |sa - da|
  | _, _, _ => True

end BlendSpec

namespace Fl
variable [FloatModel] [SmallError]

/-- An area times a value between -2 and 2. -/
theorem Rel.mul_wide {x y : Fl} {a v e t ε : ℝ} (hx : Rel x a a e t) (hy : Near y v ε) (ha : a ≤ 1) (hv : |v| ≤ 2) (he0 : 0 ≤ e) (he : e ≤ 1 / 1000)
    (hε : ε ≤ 1 / 1000) (ht : 0 ≤ t) (ht1 : t ≤ 1 / 10) : Rel (x * y) (a * v) (2 * a) (1.001 * e + ε + 1.01 / 2 ^ 20) (2.1 * t + 1 / 2 ^ 100) := by
  have ha0 := hx.nonneg
  have hε0 := hy.nonneg
  obtain ⟨u, rfl, hu, zu⟩ := hx.ex
  obtain ⟨w, rfl, hw⟩ := hy
  rw [fin_mul]
  have : Rel (rnd (u * w)) (a * v) (2 * a) (1.001 * e + ε + 1.01 / 2 ^ 20) (1.01 * (2.001 * t) + 1 / 2 ^ 100) := by
    refine rel_rnd ?_ ?_ ?_ (by linarith) (by linarith) (by positivity) (by linarith)
    · rw [show u * w - a * v = (u - a) * w + a * (w - v) by ring]
      have hw1 : |w| ≤ 2.001 := by
        have := abs_add_le (w - v) v
        rw [sub_add_cancel] at this
        linarith
      refine (abs_add_le _ _).trans ?_
      rw [abs_mul, abs_mul, abs_of_nonneg ha0]
      have h1 : |u - a| * |w| ≤ (e * a + t) * 2.001 := by gcongr
      have h2 : a * |w - v| ≤ a * ε := by gcongr
      have h3 : 0 ≤ e * a := by positivity
      have h4 : 0 ≤ a * ε := by positivity
      linarith
    · intro h; rw [zu (by linarith), zero_mul]
    · rw [abs_mul, abs_of_nonneg ha0]; nlinarith
  exact this.weaken (le_refl _) (by linarith)

omit [FloatModel] [SmallError] in
theorem Rel.widen {x : Fl} {r A e t : ℝ} (h : Rel x r A e t) (he : 0 ≤ e) : Rel x r (2 * A) e t := by
  have hA := h.nonneg
  obtain ⟨y, h1, h2, h3⟩ := h.ex
  refine ⟨⟨y, h1, h2.trans ?_, fun h0 => h3 (by linarith)⟩, h.le.trans (by linarith)⟩
  have : 0 ≤ e * A := by positivity
  linarith

end Fl

namespace Blend

theorem limit_le_abs (r : ℝ) : 0 ≤ limit r ∧ limit r ≤ |r| := by
  refine ⟨le_max_left _ _, max_le (abs_nonneg r) ((min_le_right _ _).trans (le_abs_self r))⟩

theorem formula_wide (m : Mode) (hm : m.Wide) (δ : ℝ) (i : Nat) {s d : ℝ} (s0 : 0 ≤ s) (s1 : s ≤ 1) (d0 : 0 ≤ d) (d1 : d ≤ 1) : |m.formula δ i s d| ≤ 2 := by
  by_cases hb : m.Bounded
  · have := formula_range m hb δ i s0 s1 d0 d1
    rw [abs_le]; constructor <;> linarith
  cases m <;> first | exact absurd trivial hb | exact absurd hm hb | skip
  all_goals simp only [Mode.formula]
  all_goals try split_ifs
  all_goals rw [abs_le]; constructor <;> linarith

section
variable [FloatModel] [SmallError]

/-- Division by the resulting alpha, for values that are limited. -/
theorem wide_quot {x y : Fl} {r α ε : ℝ} (hx : Rel x r (2 * α) (5.3 / 2 ^ 20 + ε) (32 / 2 ^ 100)) (hy : Rel y α α (5.3 / 2 ^ 20) (16 / 2 ^ 100)) (hε0 : 0 ≤ ε) (hε : ε ≤ 1 / 1000)
    (hα : 1 / 2 ^ 60 ≤ α) (h1 : α ≤ 1) : ¬ feq y 0 ∧ Near (Color.clamp x 1 0 / y) (limit r / α) (25 / 2 ^ 20 + 2.01 * ε) := by
  have hαp : 0 < α := lt_of_lt_of_le (by norm_num) hα
  obtain ⟨l0, l1⟩ := limit_le_abs r
  have hrα : limit r ≤ 2 * α := l1.trans hx.le
  obtain ⟨u, hu, hu'⟩ : Near (Color.clamp x 1 0) (limit r) ((5.3 / 2 ^ 20 + ε) * (2 * α) + 32 / 2 ^ 100) := by
    obtain ⟨u, rfl, h', -⟩ := hx.ex
    exact ⟨_, clamp_fin u, limit_close h'⟩
  obtain ⟨w, rfl, hw, -⟩ := hy.ex
  have hτ : (32 : ℝ) / 2 ^ 100 ≤ 1 / 2 ^ 35 * α := by
    calc (32 : ℝ) / 2 ^ 100 = 1 / 2 ^ 35 * (1 / 2 ^ 60) := by norm_num
      _ ≤ _ := by gcongr
  have hu2 : |u - limit r| ≤ (5.31 / 2 ^ 20 + ε) * (2 * α) := by
    refine hu'.trans ?_
    have : (5.3 / 2 ^ 20 : ℝ) + 1 / 2 ^ 35 ≤ 5.31 / 2 ^ 20 := by norm_num
    nlinarith
  have hw2 : |w - α| ≤ 5.31 / 2 ^ 20 * α := by
    refine hw.trans ?_
    have : (5.3 / 2 ^ 20 : ℝ) + 1 / 2 ^ 35 ≤ 5.31 / 2 ^ 20 := by norm_num
    nlinarith
  have hw3 : 0.999 * α ≤ w := by
    have := (abs_le.mp hw2).1
    have : (5.31 / 2 ^ 20 : ℝ) ≤ 0.001 := by norm_num
    nlinarith
  have hwp : 0 < w := lt_of_lt_of_le (by positivity) hw3
  refine ⟨by simp [zero_def, hwp.ne'], ?_⟩
  rw [hu, fin_div _ _ hwp.ne']
  have hq0 : 0 ≤ limit r / α := by positivity
  have hq1 : limit r / α ≤ 2 := (div_le_iff₀ hαp).mpr hrα
  have key : |u / w - limit r / α| ≤ 1.002 * (21.24 / 2 ^ 20 + 2 * ε) := by
    have e1 : u / w - limit r / α = ((u - limit r) + (limit r / α) * (α - w)) / w := by field_simp; ring
    rw [e1, abs_div, abs_of_pos hwp, div_le_iff₀ hwp]
    have h2 : |(u - limit r) + (limit r / α) * (α - w)| ≤ (21.24 / 2 ^ 20 + 2 * ε) * α := by
      refine (abs_add_le _ _).trans ?_
      rw [abs_mul, abs_of_nonneg hq0, abs_sub_comm α w]
      have : limit r / α * |w - α| ≤ 2 * (5.31 / 2 ^ 20 * α) := by gcongr
      have e2 : (21.24 / 2 ^ 20 + 2 * ε) * α = (5.31 / 2 ^ 20 + ε) * (2 * α) + 2 * (5.31 / 2 ^ 20 * α) := by ring
      linarith
    refine h2.trans ?_
    have hE : 0 ≤ 21.24 / 2 ^ 20 + 2 * ε := by positivity
    calc (21.24 / 2 ^ 20 + 2 * ε) * α ≤ (21.24 / 2 ^ 20 + 2 * ε) * (1.002 * w) := by gcongr; linarith
      _ = _ := by ring
  have h3 : |u / w| ≤ 2.01 := by
    have := abs_add_le (u / w - limit r / α) (limit r / α)
    rw [sub_add_cancel, abs_of_nonneg hq0] at this
    have : (1.002 * (21.24 / 2 ^ 20 + 2 * (1 / 1000)) : ℝ) ≤ 0.01 := by norm_num
    linarith
  obtain ⟨y, h4, h5⟩ := SmallError.rnd_near (u / w) (h3.trans (by norm_num))
  refine ⟨y, h4, ?_⟩
  have h6 := abs_sub_le y (u / w) (limit r / α)
  have h7 : |u / w| / 2 ^ 20 ≤ 2.01 / 2 ^ 20 := by gcongr
  have : (2.01 / 2 ^ 20 + 1 / 2 ^ 100 + 1.002 * (21.24 / 2 ^ 20) : ℝ) ≤ 25 / 2 ^ 20 := by norm_num
  linarith

/-- The function of the both region of the wide modes. -/
theorem mode_wide (m : Mode) (hm : m.Wide) (sc dc : Color) {sa da : ℝ} (hs : sc.alpha = fin sa) (hd : dc.alpha = fin da) (s0' : 0 ≤ sa) (s1' : sa ≤ 1) (d0' : 0 ≤ da) (d1' : da ≤ 1)
    (hδ : m.SameSide sa da) (i : Nat) {s d : ℝ} (s0 : 0 ≤ s) (s1 : s ≤ 1) (d0 : 0 ≤ d) (d1 : d ≤ 1) (ha : m.Apart s d) :
    Near (modeF m sc dc i (fin s) (fin d)) (m.formula (sa - da) i s d) (25 / 1000000) := by
  by_cases hb : m.Bounded
  · exact mode_near m hb sc dc (sa - da) i s0 s1 d0 d1 ha
  have half : (0.5 : ℝ) = 1 / 2 := by norm_num
  have as : |s| ≤ 1 := by rw [abs_of_nonneg s0]; exact s1
  have ad : |d| ≤ 1 := by rw [abs_of_nonneg d0]; exact d1
  have ns := n_fin s
  have nd := n_fin d
  cases m <;> first | exact absurd trivial hb | exact absurd hm hb | skip
  all_goals simp only [Mode.formula, modeF]
  case linear_dodge => exact (n_add ns nd (abs_le.mpr ⟨by linarith, by linarith⟩) (by norm_num)).weaken (by norm_num)
  case linear_burn =>
    have h1 := n_add nd ns (abs_le.mpr ⟨by linarith, by linarith⟩) (by norm_num)
    have h2 := n_sub h1 n_one (abs_le.mpr ⟨by linarith, by linarith⟩) (by norm_num)
    rw [add_comm s d]
    exact h2.weaken (by norm_num)
  case linear_light =>
    unfold ColorBlend.linear_light_func
    simp only [fin_le, half]
    split_ifs with h
    · have h1 := n_mul2 n_two ns (by norm_num) as (by norm_num) (by norm_num)
      have h2 := n_add nd h1 (abs_le.mpr ⟨by linarith, by linarith⟩) (by norm_num)
      have h3 := n_sub h2 n_one (abs_le.mpr ⟨by linarith, by linarith⟩) (by norm_num)
      exact h3.weaken (by norm_num)
    · have h := not_le.mp h
      have h1 := n_sub ns (n_fin (1 / 2)) (abs_le.mpr ⟨by linarith, by linarith⟩) (by norm_num)
      have h2 := n_mul2 n_two h1 (by norm_num) (abs_le.mpr ⟨by linarith, by linarith⟩) (by norm_num) (by norm_num)
      have h3 := n_add nd h2 (abs_le.mpr ⟨by linarith, by linarith⟩) (by norm_num)
      rw [show d + (2 * s - 1) = d + 2 * (s - 1 / 2) by ring]
      exact h3.weaken (by norm_num)
  case hard_mix =>
    have ha : 1 / 500000 < |s + d - 1| := ha
    unfold ColorBlend.hard_mix_func
    obtain ⟨y', e', hy'⟩ := near_rnd (r := 1 - d) (abs_le.mpr ⟨by linarith, by linarith⟩)
    rw [one_def, fin_sub, e']
    simp only [fin_lt, zero_def]
    rw [abs_of_nonneg (show 0 ≤ 1 - d by linarith)] at hy'
    have hy2 := abs_le.mp hy'
    by_cases h : s + d < 1
    · rw [abs_of_neg (by linarith)] at ha
      rw [if_pos (by linarith), if_pos h]
      exact (near_fin 0).weaken (by norm_num)
    · rw [abs_of_nonneg (by linarith)] at ha
      rw [if_neg (by linarith), if_neg h]
      exact (near_fin 1).weaken (by norm_num)
  case subtract => exact (n_sub ns nd (abs_le.mpr ⟨by linarith, by linarith⟩) (by norm_num)).weaken (by norm_num)
  case plus_lighter => exact (n_add ns nd (abs_le.mpr ⟨by linarith, by linarith⟩) (by norm_num)).weaken (by norm_num)
  case plus_darker =>
    have h1 := n_add ns nd (abs_le.mpr ⟨by linarith, by linarith⟩) (by norm_num)
    have h2 := n_sub h1 n_one (abs_le.mpr ⟨by linarith, by linarith⟩) (by norm_num)
    exact h2.weaken (by norm_num)
  case dissolve rand =>
    have hδ : sa = da ∨ 1 / 2 ^ 60 ≤ |sa - da| := hδ
    have hdiff : (0 : Fl) < sc.alpha - dc.alpha ↔ 0 < sa - da := by
      rw [hs, hd, fin_sub, zero_def]
      rcases hδ with h | h
      · rw [h, sub_self, FloatModel.rnd_zero]; simp
      · obtain ⟨y, e, hy⟩ := SmallError.rnd_near (sa - da) (by rw [abs_le]; norm_num; constructor <;> linarith)
        rw [e, fin_lt]
        rw [abs_le] at hy
        have hh : (1 : ℝ) / 2 ^ 100 ≤ |sa - da| / 2 ^ 20 := by
          calc (1 : ℝ) / 2 ^ 100 ≤ 1 / 2 ^ 60 / 2 ^ 20 := by norm_num
            _ ≤ _ := by gcongr
        rcases lt_or_ge 0 (sa - da) with hp | hn
        · rw [abs_of_pos hp] at *
          refine ⟨fun _ => hp, fun _ => ?_⟩
          norm_num at *
          linarith
        · rw [abs_of_nonpos hn] at *
          refine ⟨fun h' => ?_, fun h' => absurd h' (not_lt.mpr hn)⟩
          exfalso
          norm_num at *
          linarith
    simp only [ColorBlend.dissolve_func]
    have e : ((OfNat.ofNat 25 : ℝ) ≤ ((rand i % 101 : ℕ) : ℝ)) ↔ 25 ≤ rand i % 101 := by
      rw [show (OfNat.ofNat 25 : ℝ) = ((25 : ℕ) : ℝ) by norm_num]; exact Nat.cast_le
    simp only [gt_iff_lt, hdiff, ge_iff_le, lit_def, fin_le, e]
    by_cases hp : 0 < sa - da
    · by_cases h : 25 ≤ rand i % 101
      · rw [if_pos hp, if_pos h, if_pos (.inl ⟨hp, h⟩)]
        exact (near_fin s).weaken (by norm_num)
      · rw [if_pos hp, if_neg h, if_neg (by rintro (⟨-, h'⟩ | ⟨h', -⟩); exacts [h h', absurd hp (not_lt.mpr h')])]
        exact (near_fin d).weaken (by norm_num)
    · have hn := not_lt.mp hp
      by_cases h : 25 ≤ rand i % 101
      · rw [if_neg hp, if_pos h, if_neg (by rintro (⟨h', -⟩ | ⟨-, h'⟩); exacts [hp h', by omega])]
        exact (near_fin d).weaken (by norm_num)
      · rw [if_neg hp, if_neg h, if_pos (.inr ⟨hn, by omega⟩)]
        exact (near_fin s).weaken (by norm_num)

/-- `general_porter_duff` on two pixels with values of the both region between -2 and 2. -/
theorem gpd_wide {s d : Color} {s0 s1 s2 sa d0 d1 d2 da v0 v1 v2 ε : ℝ} (hs : IsColor .rgbDeep s) (cs : s.comps = [fin s0, fin s1, fin s2]) (as : s.malpha = fin sa)
    (hd : IsColor .rgbDeep d) (cd : d.comps = [fin d0, fin d1, fin d2]) (ad : d.malpha = fin da) (us ud : Bool) (f : Nat → Fl → Fl → Fl)
    (h0 : Near (f 0 (fin s0) (fin d0)) v0 ε) (h1 : Near (f 1 (fin s1) (fin d1)) v1 ε) (h2 : Near (f 2 (fin s2) (fin d2)) v2 ε)
    (hε : ε ≤ 1 / 1000) (sa0 : 0 ≤ sa) (sa1 : sa ≤ 1) (da0 : 0 ≤ da) (da1 : da ≤ 1)
    (rs : (0 ≤ s0 ∧ s0 ≤ 1) ∧ (0 ≤ s1 ∧ s1 ≤ 1) ∧ (0 ≤ s2 ∧ s2 ≤ 1)) (rd : (0 ≤ d0 ∧ d0 ≤ 1) ∧ (0 ≤ d1 ∧ d1 ≤ 1) ∧ (0 ≤ d2 ∧ d2 ≤ 1))
    (rv : |v0| ≤ 2 ∧ |v1| ≤ 2 ∧ |v2| ≤ 2) (hα : 1 / 2 ^ 60 ≤ alphaOf us ud true sa da) :
    ∃ r0 r1 r2 ra, gpdVal s d us ud true f = ok (obj .rgbDeep r0 r1 r2 (fin ra) s.space) ∧
      |ra - alphaOf us ud true sa da| ≤ 6 / 2 ^ 20 * alphaOf us ud true sa da ∧
      |r0 - limit (comb us ud sa da s0 d0 v0) / alphaOf us ud true sa da| ≤ 25 / 2 ^ 20 + 2.01 * ε ∧
      |r1 - limit (comb us ud sa da s1 d1 v1) / alphaOf us ud true sa da| ≤ 25 / 2 ^ 20 + 2.01 * ε ∧
      |r2 - limit (comb us ud sa da s2 d2 v2) / alphaOf us ud true sa da| ≤ 25 / 2 ^ 20 + 2.01 * ε := by
  obtain ⟨x, y, z, es⟩ := rgb_form hs
  obtain ⟨x', y', z', ed⟩ := rgb_form hd
  rw [es] at cs
  rw [ed] at cd
  simp only [List.cons.injEq, and_true] at cs cd
  obtain ⟨rfl, rfl, rfl⟩ := cs
  obtain ⟨rfl, rfl, rfl⟩ := cd
  rw [as] at es
  rw [ad] at ed
  generalize s.space = sp at *
  subst es
  rw [ed, gpd_result]
  have hε0 := h0.nonneg
  have p1 := mul_nonneg sa0 da0
  have p2 := mul_nonneg (sub_nonneg.mpr sa1) (sub_nonneg.mpr da1)
  have p3 := mul_nonneg sa0 (sub_nonneg.mpr da1)
  have p4 := mul_nonneg da0 (sub_nonneg.mpr sa1)
  have ar := alphaOf_range us ud true sa0 sa1 da0 da1
  have A1 := rel_outside sa0 sa1 da0 da1
  have A2 := rel_outside da0 da1 sa0 sa1
  have A3 := rel_inside sa0 sa1 da0 da1
  have hα2 : sa * (1 - da) * weight us + da * (1 - sa) * weight ud + sa * da = alphaOf us ud true sa da := by simp [alphaOf, weight]
  have w0 : ∀ b, 0 ≤ weight b := by intro b; cases b <;> simp [weight]
  have hw1 := mul_nonneg p3 (w0 us)
  have hw2 := mul_nonneg p4 (w0 ud)
  have chan : ∀ (i : Nat) (a b v : ℝ), 0 ≤ a → a ≤ 1 → 0 ≤ b → b ≤ 1 → |v| ≤ 2 → Near (f i (fin a) (fin b)) v ε →
      Rel (fin sa * (1 - fin da) * (if us then fin a else 0) + fin da * (1 - fin sa) * (if ud then fin b else 0) + fin sa * fin da * f i (fin a) (fin b))
        (comb us ud sa da a b v) (2 * alphaOf us ud true sa da) (5.3 / 2 ^ 20 + ε) (32 / 2 ^ 100) := by
    intro i a b v a0 a1 b0 b1 hv2 hv
    have hE : 0 ≤ 3.2 / 2 ^ 20 + ε := by positivity
    have q1 := (rel_region A1 (by nlinarith) us ((near_fin a).weaken hε0) a0 a1 hε).widen hE
    have q2 := (rel_region A2 (by nlinarith) ud ((near_fin b).weaken hε0) b0 b1 hε).widen hE
    have q3 := (A3.mul_wide hv (by nlinarith) hv2 (by norm_num) (by norm_num) hε (by norm_num) (by norm_num)).weaken (e' := 3.2 / 2 ^ 20 + ε) (t' := 8 / 2 ^ 100) (by norm_num; linarith) (by norm_num)
    have s1 := q1.add q2 (by linarith [ar.2]) (by norm_num; linarith) (by norm_num) (by norm_num) (by norm_num)
    have s2 := s1.add (q3.weaken (e' := 3.2 / 2 ^ 20 + ε + 1.01 / 2 ^ 20) (by norm_num) le_rfl) (by linarith [ar.2]) (by norm_num; linarith) (by norm_num) (by norm_num) (by norm_num)
    have e : 2 * (sa * (1 - da) * weight us) + 2 * (da * (1 - sa) * weight ud) + 2 * (sa * da) = 2 * alphaOf us ud true sa da := by rw [← hα2]; ring
    rw [e] at s2
    exact s2.weaken (by norm_num; linarith) (by norm_num)
  have c0 := chan 0 s0 d0 v0 rs.1.1 rs.1.2 rd.1.1 rd.1.2 rv.1 h0
  have c1 := chan 1 s1 d1 v1 rs.2.1.1 rs.2.1.2 rd.2.1.1 rd.2.1.2 rv.2.1 h1
  have c2 := chan 2 s2 d2 v2 rs.2.2.1 rs.2.2.2 rd.2.2.1 rd.2.2.2 rv.2.2 h2
  have ca : Rel (fin sa * (1 - fin da) * (if us then 1 else 0) + fin da * (1 - fin sa) * (if ud then 1 else 0) + fin sa * fin da * (if true then 1 else 0))
      (alphaOf us ud true sa da) (alphaOf us ud true sa da) (5.3 / 2 ^ 20) (16 / 2 ^ 100) := by
    have n1 : Near (1 : Fl) 1 0 := by rw [one_def]; exact near_fin 1
    have := rel_sum (rel_region A1 (by nlinarith) us n1 (by norm_num) (by norm_num) (by norm_num)) (rel_region A2 (by nlinarith) ud n1 (by norm_num) (by norm_num) (by norm_num))
      (rel_region A3 (by nlinarith) true n1 (by norm_num) (by norm_num) (by norm_num))
      (by linarith [ar.2, show alphaOf us ud true sa da = sa * (1 - da) * weight us + da * (1 - sa) * weight ud + sa * da * weight true from rfl]) (le_refl 0) (by norm_num)
    simpa only [mul_one, add_zero, alphaOf] using this
  unfold result
  generalize hX : fin sa * (1 - fin da) * (if us then fin s0 else 0) + fin da * (1 - fin sa) * (if ud then fin d0 else 0) + fin sa * fin da * f 0 (fin s0) (fin d0) = X at *
  generalize hY : fin sa * (1 - fin da) * (if us then fin s1 else 0) + fin da * (1 - fin sa) * (if ud then fin d1 else 0) + fin sa * fin da * f 1 (fin s1) (fin d1) = Y at *
  generalize hZ : fin sa * (1 - fin da) * (if us then fin s2 else 0) + fin da * (1 - fin sa) * (if ud then fin d2 else 0) + fin sa * fin da * f 2 (fin s2) (fin d2) = Z at *
  generalize hW : fin sa * (1 - fin da) * (if us then 1 else 0) + fin da * (1 - fin sa) * (if ud then 1 else 0) + fin sa * fin da * (if true then 1 else 0) = W at *
  generalize hal : alphaOf us ud true sa da = α at *
  obtain ⟨hne, r0, e0, n0⟩ := wide_quot c0 ca hε0 hε hα ar.2
  obtain ⟨-, r1, e1, n1⟩ := wide_quot c1 ca hε0 hε hα ar.2
  obtain ⟨-, r2, e2, n2⟩ := wide_quot c2 ca hε0 hε hα ar.2
  obtain ⟨ra, ea, na, -⟩ := ca.ex
  refine ⟨r0, r1, r2, ra, ?_, ?_, n0, n1, n2⟩
  · unfold Color.alphaDivide
    rw [if_neg hne]
    simp only [List.map_cons, List.map_nil, e0, e1, e2]
    rw [ea]
    rfl
  · refine na.trans ?_
    have hτ : (16 : ℝ) / 2 ^ 100 ≤ 1 / 2 ^ 36 * α := by
      calc (16 : ℝ) / 2 ^ 100 = 1 / 2 ^ 36 * (1 / 2 ^ 60) := by norm_num
        _ ≤ _ := by gcongr
    have : (5.3 / 2 ^ 20 : ℝ) + 1 / 2 ^ 36 ≤ 6 / 2 ^ 20 := by norm_num
    nlinarith

end

end Blend

section
variable [FloatModel] [SmallError]

/-- C133 for translucent colours and all modes but vivid_light, divide and custom functions: the premultiplied blend limited to 0..1 and divided by alpha, up to 1 / 12500 per channel.
The quotient may exceed 1, see C58. -/
theorem C133_wide_partial (m : Mode) (hm : m.Wide) (w : World) (s d : Color) (s0 s1 s2 sa d0 d1 d2 da : ℝ) (hs : IsPixel s s0 s1 s2 sa) (hd : IsPixel d d0 d1 d2 da)
    (hsp : s.space = d.space) (a0 : m.Apart s0 d0) (a1 : m.Apart s1 d1) (a2 : m.Apart s2 d2) (hδ : m.SameSide sa da) (α : ℝ) (hα : α = sa + da - sa * da) (hα' : 1 / 2 ^ 60 ≤ α) :
    ∃ r0 r1 r2 ra, Yields (m.run true true) w s d (obj .rgbDeep r0 r1 r2 (fin ra) s.space) ∧ |ra - α| ≤ 6 / 1000000 * α ∧
      |r0 - limit (sa * (1 - da) * s0 + da * (1 - sa) * d0 + sa * da * m.formula (sa - da) 0 s0 d0) / α| ≤ 1 / 12500 ∧
      |r1 - limit (sa * (1 - da) * s1 + da * (1 - sa) * d1 + sa * da * m.formula (sa - da) 1 s1 d1) / α| ≤ 1 / 12500 ∧
      |r2 - limit (sa * (1 - da) * s2 + da * (1 - sa) * d2 + sa * da * m.formula (sa - da) 2 s2 d2) / α| ≤ 1 / 12500 := by
  have ha : Blend.alphaOf true true true sa da = α := by rw [hα]; simp [Blend.alphaOf, Blend.weight]; ring
  have hc : ∀ a b v : ℝ, Blend.comb true true sa da a b v = sa * (1 - da) * a + da * (1 - sa) * b + sa * da * v := by intro a b v; simp [Blend.comb, Blend.weight]
  have hsa : s.alpha = fin sa := by rw [hs.eq, obj_alpha _ _ _ _ _ _ rfl]
  have hda : d.alpha = fin da := by rw [hd.eq, obj_alpha _ _ _ _ _ _ rfl]
  have n0 := Blend.mode_wide m hm s d hsa hda hs.a0 hs.a1 hd.a0 hd.a1 hδ 0 hs.rgb.r0 hs.rgb.r1 hd.rgb.r0 hd.rgb.r1 a0
  have n1 := Blend.mode_wide m hm s d hsa hda hs.a0 hs.a1 hd.a0 hd.a1 hδ 1 hs.rgb.g0 hs.rgb.g1 hd.rgb.g0 hd.rgb.g1 a1
  have n2 := Blend.mode_wide m hm s d hsa hda hs.a0 hs.a1 hd.a0 hd.a1 hδ 2 hs.rgb.b0 hs.rgb.b1 hd.rgb.b0 hd.rgb.b1 a2
  obtain ⟨r0, r1, r2, ra, hg, ea, e0, e1, e2⟩ := Blend.gpd_wide hs.rgb.col hs.rgb.comps hs.alpha hd.rgb.col hd.rgb.comps hd.alpha true true
    (Blend.modeF m s d) n0 n1 n2 (by norm_num) hs.a0 hs.a1 hd.a0 hd.a1
    ⟨⟨hs.rgb.r0, hs.rgb.r1⟩, ⟨hs.rgb.g0, hs.rgb.g1⟩, ⟨hs.rgb.b0, hs.rgb.b1⟩⟩ ⟨⟨hd.rgb.r0, hd.rgb.r1⟩, ⟨hd.rgb.g0, hd.rgb.g1⟩, ⟨hd.rgb.b0, hd.rgb.b1⟩⟩
    ⟨Blend.formula_wide m hm _ 0 hs.rgb.r0 hs.rgb.r1 hd.rgb.r0 hd.rgb.r1, Blend.formula_wide m hm _ 1 hs.rgb.g0 hs.rgb.g1 hd.rgb.g0 hd.rgb.g1,
      Blend.formula_wide m hm _ 2 hs.rgb.b0 hs.rgb.b1 hd.rgb.b0 hd.rgb.b1⟩ (by rw [ha]; exact hα')
  have hy := Blend.operator_rgb (f := Blend.modeF m) (w := w) hs.rgb.col hd.rgb.col hsp hg
  rw [← Blend.mode_eq] at hy
  simp only [ha, hc] at ea e0 e1 e2
  have hp : 0 ≤ α := le_trans (by norm_num) hα'
  exact ⟨r0, r1, r2, ra, hy, ea.trans (by gcongr; norm_num), e0.trans (by norm_num), e1.trans (by norm_num), e2.trans (by norm_num)⟩

end

/-- Case: in single precision, linear_dodge of half-transparent greys, where one channel leaves 0..1; dissolve of colours of different opacity. -/
example (w : World) : letI := Binary32.binary32
    (∃ r0 r1 r2 ra, Yields (ColorBlend.linear_dodge true true) w (obj .rgbDeep 1 0.5 0 (fin 0.75) none) (obj .rgbDeep 1 0.25 0.5 (fin 0.75) none) (obj .rgbDeep r0 r1 r2 (fin ra) none) ∧
      |r0 - 16 / 15| ≤ 1 / 12500 ∧ |r1 - 0.6| ≤ 1 / 12500 ∧ |r2 - 0.4| ≤ 1 / 12500) ∧
    (∃ r0 r1 r2 ra, Yields (ColorBlend.subtract true true) w (obj .rgbDeep 0.5 0.5 0 (fin 0.5) none) (obj .rgbDeep 0.25 0.5 1 (fin 0.5) none) (obj .rgbDeep r0 r1 r2 (fin ra) none) ∧
      |r0 - 1 / 3| ≤ 1 / 12500 ∧ |r1 - 1 / 3| ≤ 1 / 12500 ∧ |r2 - 0| ≤ 1 / 12500) := by
  letI := Binary32.binary32
  haveI := Binary32.binary32_small
  constructor
  · obtain ⟨r0, r1, r2, ra, h1, -, h2, h3, h4⟩ := C133_wide_partial .linear_dodge trivial w _ _ 1 0.5 0 0.75 1 0.25 0.5 0.75
      (isPixel_obj none (by norm_num) (by norm_num) (by norm_num) (by norm_num)) (isPixel_obj none (by norm_num) (by norm_num) (by norm_num) (by norm_num)) rfl
      trivial trivial trivial trivial _ rfl (by norm_num)
    norm_num [Mode.formula, limit] at h2 h3 h4
    exact ⟨r0, r1, r2, ra, h1, by norm_num; exact h2, by norm_num; exact h3, by norm_num; exact h4⟩
  · obtain ⟨r0, r1, r2, ra, h1, -, h2, h3, h4⟩ := C133_wide_partial .subtract trivial w _ _ 0.5 0.5 0 0.5 0.25 0.5 1 0.5
      (isPixel_obj none (by norm_num) (by norm_num) (by norm_num) (by norm_num)) (isPixel_obj none (by norm_num) (by norm_num) (by norm_num) (by norm_num)) rfl
      trivial trivial trivial trivial _ rfl (by norm_num)
    norm_num [Mode.formula, limit] at h2 h3 h4
    exact ⟨r0, r1, r2, ra, h1, by norm_num; exact h2, by norm_num; exact h3, by norm_num; exact h4⟩
