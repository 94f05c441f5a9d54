import Verif.HueNear

/-!
# Turning the hue by sixths of a turn with rounding errors

Helper lemmas for C163: where a colour ends up when its hue, stored with rounding errors and limited to 359 degrees, is turned by a multiple of 60 degrees.
-/

open Outcome Fl Prog ObjectSpec ConvSpec

namespace CombineSpec

/-- A colour with its hue turned by 60 degrees, if `s` is the sum of its largest and its smallest channel. -/
def sixth (s : ℝ) (p : ℝ × ℝ × ℝ) : ℝ × ℝ × ℝ := (s - p.2.1, s - p.2.2, s - p.1)

end CombineSpec

open CombineSpec

namespace Hue

/-- The next sector. -/
def Sector.next : Sector → Sector
  | A => B
  | B => C
  | C => D
  | D => E
  | E => F
  | F => A

theorem next_channels (k : Sector) (u : ℝ) : k.next.red (1 - u) = 1 - k.green u ∧ k.next.green (1 - u) = 1 - k.blue u ∧ k.next.blue (1 - u) = 1 - k.red u := by
  cases k <;> simp [Sector.next, Sector.red, Sector.green, Sector.blue]

theorem next_hue (k : Sector) (u : ℝ) : ∃ j : ℤ, k.next.hue (1 - u) = k.hue u + 60 - 360 * j := by
  cases k
  case F => exact ⟨1, by simp only [Sector.next, Sector.hue]; push_cast; ring⟩
  all_goals exact ⟨0, by simp only [Sector.next, Sector.hue]; push_cast; ring⟩

/-- A position turned by `m` sixths of a turn. -/
theorem turn_pos (m : ℕ) (k : Sector) {u : ℝ} (u0 : 0 ≤ u) (u1 : u ≤ 1) : ∃ (k' : Sector) (u' : ℝ) (j : ℤ), 0 ≤ u' ∧ u' ≤ 1 ∧ k'.hue u' = k.hue u + 60 * m - 360 * j ∧
    ∀ mn δ : ℝ, (sixth (2 * mn + δ))^[m] (mn + δ * k.red u, mn + δ * k.green u, mn + δ * k.blue u) = (mn + δ * k'.red u', mn + δ * k'.green u', mn + δ * k'.blue u') := by
  induction m with
  | zero => exact ⟨k, u, 0, u0, u1, by simp, fun _ _ => rfl⟩
  | succ m ih =>
    obtain ⟨k', u', j, h0, h1, h2, h3⟩ := ih
    obtain ⟨i, hi⟩ := next_hue k' u'
    obtain ⟨c1, c2, c3⟩ := next_channels k' u'
    refine ⟨k'.next, 1 - u', j + i, by linarith, by linarith, by rw [hi, h2]; push_cast; ring, fun mn δ => ?_⟩
    rw [Function.iterate_succ_apply', h3, c1, c2, c3]
    simp only [sixth, Prod.mk.injEq]
    refine ⟨?_, ?_, ?_⟩ <;> ring

/-- The whole of a turned colour lies between the same bounds. -/
theorem turn_range (m : ℕ) {mn mx r g b : ℝ} (hr : mn ≤ r ∧ r ≤ mx) (hg : mn ≤ g ∧ g ≤ mx) (hb : mn ≤ b ∧ b ≤ mx) :
    ∃ r' g' b', (sixth (mx + mn))^[m] (r, g, b) = (r', g', b') ∧ (mn ≤ r' ∧ r' ≤ mx) ∧ (mn ≤ g' ∧ g' ≤ mx) ∧ (mn ≤ b' ∧ b' ≤ mx) := by
  induction m with
  | zero => exact ⟨r, g, b, rfl, hr, hg, hb⟩
  | succ m ih =>
    obtain ⟨r', g', b', e, h1, h2, h3⟩ := ih
    refine ⟨mx + mn - g', mx + mn - b', mx + mn - r', by rw [Function.iterate_succ_apply', e]; rfl, ?_, ?_, ?_⟩ <;> constructor <;> linarith

theorem turn_grey (m : ℕ) (x : ℝ) : (sixth (x + x))^[m] (x, x, x) = (x, x, x) := by
  induction m with
  | zero => rfl
  | succ m ih => rw [Function.iterate_succ_apply', ih]; simp [sixth]

/-- Position after the hue has been limited to 359 degrees. -/
theorem lim_stands {k : Sector} {u x : ℝ} (u0 : 0 ≤ u) (u1 : u ≤ 1) (x0 : 0 ≤ x) (x1 : x < 360) {j : ℤ} (h : k.hue u = x + 360 * j) {mn δ : ℝ} (hδ : 0 < δ) :
    ∃ k' u', 0 ≤ u' ∧ u' ≤ 1 ∧ Stands k' u' (min x 359) ∧ mn + δ * k'.red u' = mn + δ * k.red u ∧ mn + δ * k'.green u' = mn + δ * k.green u ∧
      mn + δ * k'.blue u' = gapBlue (mn + δ * k.red u) (mn + δ * k.green u) (mn + δ * k.blue u) := by
  have hlo : 0 ≤ k.hue u := by cases k <;> simp only [Sector.hue] <;> linarith
  have hhi : k.hue u ≤ 360 := by cases k <;> simp only [Sector.hue] <;> linarith
  have hj : j = 0 ∨ j = 1 := by
    have a : (-1 : ℝ) < j := by linarith
    have b : (j : ℝ) < 2 := by linarith
    have a' : -1 < j := by exact_mod_cast a
    have b' : j < 2 := by exact_mod_cast b
    omega
  have key : ∀ (k : Sector) (u : ℝ), 0 ≤ u → u ≤ 1 → (k = .F → 0 < u) → k.hue u = x → ∃ k' u', 0 ≤ u' ∧ u' ≤ 1 ∧ Stands k' u' (min x 359) ∧
      mn + δ * k'.red u' = mn + δ * k.red u ∧ mn + δ * k'.green u' = mn + δ * k.green u ∧
      mn + δ * k'.blue u' = gapBlue (mn + δ * k.red u) (mn + δ * k.green u) (mn + δ * k.blue u) := by
    intro k u u0 u1 hf hx
    have hr : Sector.hue k u < 360 := by rw [hx]; exact x1
    by_cases hk : k = .F ∧ u < 1 / 60
    · obtain ⟨rfl, hu⟩ := hk
      have up := hf rfl
      simp only [Sector.hue] at hx
      have : δ * u < δ * (1 / 60) := by nlinarith
      have : 0 < δ * u := by positivity
      refine ⟨.F, 1 / 60, by norm_num, by norm_num, .inl ?_, rfl, rfl, ?_⟩
      · rw [min_eq_right (by linarith)]; norm_num [Sector.hue]
      · simp only [Sector.red, Sector.green, Sector.blue]
        have hg : HueGap (mn + δ * 1) (mn + δ * 0) (mn + δ * u) := by constructor <;> linarith
        rw [gapBlue, if_pos hg]; ring
    · refine ⟨k, u, u0, u1, .inl ?_, rfl, rfl, ?_⟩
      · rw [min_eq_left, hx]
        rw [← hx]
        cases k <;> simp only [Sector.hue, true_and, not_lt, reduceCtorEq, false_and, not_false_eq_true] at * <;> linarith
      · rw [gapBlue, if_neg]
        rintro ⟨h1, h2⟩
        apply hk
        have hu1 : 0 ≤ δ * (1 - u) := mul_nonneg hδ.le (by linarith)
        have hu0 : 0 ≤ δ * u := by positivity
        cases k <;> simp only [Sector.red, Sector.green, Sector.blue, true_and, reduceCtorEq, false_and] at * <;> nlinarith
  by_cases hF : k = .F ∧ u = 0
  · obtain ⟨rfl, rfl⟩ := hF
    have hx : x = 0 := by
      simp only [Sector.hue] at h
      rcases hj with rfl | rfl <;> push_cast at h <;> linarith
    have := key .A 0 le_rfl zero_le_one (by simp) (by rw [hx]; norm_num [Sector.hue])
    simpa only [Sector.red, Sector.green, Sector.blue] using this
  · refine key k u u0 u1 (fun e => lt_of_le_of_ne u0 fun e' => hF ⟨e, e'.symm⟩) ?_
    have : k.hue u < 360 := by
      refine lt_of_le_of_ne hhi fun e => hF ?_
      cases k <;> simp only [Sector.hue] at e <;> first | (exfalso; linarith) | exact ⟨rfl, by linarith⟩
    rcases hj with rfl | rfl <;> push_cast at h <;> linarith

section
variable [FloatModel] [SmallError] [IntExact]

omit [SmallError] in
theorem rnd_nat (n : ℕ) (h : n ≤ 2 ^ 24) : rnd (n : ℝ) = fin n := by
  simpa using IntExact.rnd_int (n : ℤ) (by rw [abs_of_nonneg (by positivity)]; exact_mod_cast h)

/-- The setter on a hue turned by `m` sixths of a turn. -/
theorem turn_stored {H x δ : ℝ} {m : ℕ} (m1 : 1 ≤ m) (m5 : m ≤ 5) (H0 : 0 ≤ H) (H1 : H ≤ 359) (δ0 : 1 / 300 ≤ δ) (δ1 : δ ≤ 1) (hn : |H - x| * δ ≤ 1 / 800)
    (side : x + 60 * m = 360 ∧ H = x ∨ 1 / 5 ≤ |x + 60 * m - 360| * δ) :
    ∃ H' x' : ℝ, ∃ j : ℤ, Color.clamp (Color.hueReduce (rnd (H + 60 * m))) 359 0 = fin H' ∧ 0 ≤ H' ∧ H' ≤ 359 ∧ 0 ≤ x' ∧ x' < 360 ∧ x' = x + 60 * m + 360 * j ∧
      |H' - min x' 359| * δ ≤ 1 / 400 := by
  have δp : 0 < δ := by linarith
  have m1' : (1 : ℝ) ≤ m := by exact_mod_cast m1
  have m5' : (m : ℝ) ≤ 5 := by exact_mod_cast m5
  have hd : |H - x| ≤ 3 / 8 := by
    have : |H - x| * (1 / 300) ≤ |H - x| * δ := by gcongr
    linarith
  have hd' := abs_le.mp hd
  obtain ⟨t, et, nt⟩ := near_rnd (r := H + 60 * m) (by rw [abs_of_nonneg (by positivity)]; linarith)
  rw [abs_of_nonneg (a := H + 60 * m) (by positivity)] at nt
  have nt2 : |t - (H + 60 * m)| ≤ 7 / 10000 := by linarith
  have nt' := abs_le.mp nt2
  rw [et]
  have dist : ∀ c : ℝ, |t + c - (x + 60 * m + c)| * δ ≤ 1 / 400 := by
    intro c
    have : |t + c - (x + 60 * m + c)| ≤ |t - (H + 60 * m)| + |H - x| := by
      rw [show t + c - (x + 60 * m + c) = (t - (H + 60 * m)) + (H - x) by ring]; exact abs_add_le _ _
    calc _ ≤ (|t - (H + 60 * m)| + |H - x|) * δ := by gcongr
      _ = |t - (H + 60 * m)| * δ + |H - x| * δ := by ring
      _ ≤ 7 / 10000 * 1 + 1 / 800 := by gcongr
      _ ≤ _ := by norm_num
  have far : ∀ y : ℝ, 1 / 5 ≤ y * δ → |H - x| + 1 / 10 ≤ y := by
    intro y hy
    by_contra hc
    push Not at hc
    have : y * δ ≤ (|H - x| + 1 / 10) * δ := by gcongr
    nlinarith
  by_cases hs : 360 ≤ x + 60 * m
  · have hH : 360 ≤ H + 60 * m := by
      rcases side with ⟨h1, h2⟩ | h
      · rw [h2]; exact h1.ge
      · rw [abs_of_nonneg (by linarith)] at h
        have := far _ h
        have := neg_abs_le (H - x)
        linarith
    have t360 : 360 ≤ t := by
      have : rnd (360 : ℝ) ≤ rnd (H + 60 * m) := FloatModel.rnd_mono _ _ hH
      rw [et, show rnd (360 : ℝ) = fin 360 by simpa using rnd_nat 360 (by norm_num)] at this
      simpa using this
    refine ⟨t + (-360), x + 60 * m + (-360), -1, ?_, by linarith, by linarith, by linarith, by linarith, by push_cast; ring, ?_⟩
    · unfold Color.hueReduce
      simp only [lit_def, zero_def]
      rw [fmod_ge (by norm_num) (by linarith) (by linarith)]
      simp only [fin_lt]
      rw [if_neg (by linarith), Color.clamp_fin, min_eq_left (by linarith), max_eq_left (by linarith)]
      rfl
    · rw [min_eq_left (by linarith)]; exact dist _
  · push Not at hs
    have hH : H + 60 * m ≤ 360 - 1 / 10 := by
      rcases side with ⟨h1, -⟩ | h
      · linarith
      · rw [abs_of_neg (by linarith)] at h
        have := far _ h
        have := le_abs_self (H - x)
        linarith
    refine ⟨min t 359, x + 60 * m, 0, ?_, le_min (by linarith) (by norm_num), min_le_right _ _, by linarith, by linarith, by push_cast; ring, ?_⟩
    · unfold Color.hueReduce
      simp only [lit_def, zero_def]
      rw [fmod_lt (by norm_num) (by linarith) (by linarith)]
      simp only [fin_lt]
      rw [if_neg (by linarith), Color.clamp_fin, max_eq_left (le_min (by linarith) (by norm_num))]
    · have : |min t 359 - min (x + 60 * m) 359| ≤ |t - (x + 60 * m)| := (abs_min_sub_min_le_max _ _ _ _).trans (max_le le_rfl (by simp))
      have h2 := dist 0
      rw [add_zero, add_zero] at h2
      exact le_trans (by gcongr) h2

/-- The hue of pure colours has no rounding error. -/
theorem hue_pure {mx mn : ℝ} (h : 1 / 300 ≤ mx - mn) (h1 : mx - mn ≤ 1) :
    (∀ r g b : ℝ, (r = mx ∧ g = mx ∧ b = mn → Leaf.hueFromRgb (fin r) (fin g) (fin b) (fin mx) (fin mx - fin mn) = fin 60) ∧
      (r = mn ∧ g = mx ∧ b = mn → Leaf.hueFromRgb (fin r) (fin g) (fin b) (fin mx) (fin mx - fin mn) = fin 120) ∧
      (r = mn ∧ g = mx ∧ b = mx → Leaf.hueFromRgb (fin r) (fin g) (fin b) (fin mx) (fin mx - fin mn) = fin 180) ∧
      (r = mn ∧ g = mn ∧ b = mx → Leaf.hueFromRgb (fin r) (fin g) (fin b) (fin mx) (fin mx - fin mn) = fin 240)) := by
  obtain ⟨d, ed, nd⟩ := diff_near (x := mx) (y := mn) (by rw [abs_of_pos (by linarith)]; exact h1)
  rw [abs_le] at nd
  have dp : d ≠ 0 := by linarith
  have hne : mx ≠ mn := by intro e; linarith
  have i0 : ∀ x : ℝ, fin x - fin x = fin 0 := by intro x; rw [fin_sub, sub_self, FloatModel.rnd_zero]
  have i1 : fin d / fin d = fin 1 := by rw [fin_div _ _ dp, div_self dp]; simpa using rnd_nat 1 (by norm_num)
  have i2 : fin 0 / fin d = fin 0 := by rw [fin_div _ _ dp, zero_div, FloatModel.rnd_zero]
  have m60 : fin 60 * fin 1 = fin 60 := by rw [fin_mul, mul_one]; simpa using rnd_nat 60 (by norm_num)
  intro r g b
  refine ⟨?_, ?_, ?_, ?_⟩
  · rintro ⟨rfl, rfl, rfl⟩
    simp only [Leaf.hueFromRgb, feq_fin, if_true, lit_def]
    rw [ed, i1, fmod_lt (by norm_num) (by norm_num) (by norm_num), m60]
  · rintro ⟨rfl, rfl, rfl⟩
    simp only [Leaf.hueFromRgb, feq_fin, if_neg hne, if_true, lit_def]
    rw [ed, i0, i2, fin_add, show (0 : ℝ) + 2 = ((2 : ℕ) : ℝ) by norm_num, rnd_nat 2 (by norm_num), fin_mul, show (60 : ℝ) * ((2 : ℕ) : ℝ) = ((120 : ℕ) : ℝ) by norm_num, rnd_nat 120 (by norm_num)]
    norm_num
  · rintro ⟨rfl, rfl, rfl⟩
    simp only [Leaf.hueFromRgb, feq_fin, if_neg hne, if_true, lit_def]
    rw [ed, i1, fin_add, show (1 : ℝ) + 2 = ((3 : ℕ) : ℝ) by norm_num, rnd_nat 3 (by norm_num), fin_mul, show (60 : ℝ) * ((3 : ℕ) : ℝ) = ((180 : ℕ) : ℝ) by norm_num, rnd_nat 180 (by norm_num)]
    norm_num
  · rintro ⟨rfl, rfl, rfl⟩
    simp only [Leaf.hueFromRgb, feq_fin, if_neg hne, lit_def]
    rw [ed, i0, i2, fin_add, show (0 : ℝ) + 4 = ((4 : ℕ) : ℝ) by norm_num, rnd_nat 4 (by norm_num), fin_mul, show (60 : ℝ) * ((4 : ℕ) : ℝ) = ((240 : ℕ) : ℝ) by norm_num, rnd_nat 240 (by norm_num)]
    norm_num

/-- A channel of a turned colour. -/
theorem turned_channel {mx mn S l H x n w y : ℝ} (l0 : 0 < l) (l1 : l ≤ 1) (nl : |l - (mx + mn) / 2| ≤ 5 / 1000000) (S0 : 0 ≤ S) (S1 : S ≤ 1) (H0 : 0 ≤ H) (H1 : H ≤ 359)
    (n0 : 0 ≤ n) (n1 : n ≤ 8) (hS : |S * min l (1 - l) - (mx - mn) / 2| ≤ 1 / 100000) (hδ : 0 ≤ mx - mn) (hH : |H - x| * (mx - mn) ≤ 1 / 400)
    (hw : lweight (n + x / 30) = 1 - 2 * w) (hy : y = mn + (mx - mn) * w) : Near (Leaf.hslToRgb (fin H) (fin S) (fin l) (fin n)) y (1 / 2000) := by
  obtain ⟨z, e1, e2⟩ := hsl_value H0 H1 S0 S1 l0.le l1 n0 n1
  refine ⟨z, e1, ?_⟩
  have hwr := lweight_range n0 n1 H0 H1
  have k1 : |(S * min l (1 - l) - (mx - mn) / 2) * lweight (n + H / 30)| ≤ 1 / 100000 * 1 := by
    rw [abs_mul]; gcongr
  have k2 : |(mx - mn) / 2 * (lweight (n + H / 30) - lweight (n + x / 30))| ≤ 1 / 12000 := by
    rw [abs_mul, abs_of_nonneg (by linarith)]
    have := lweight_lip (n + H / 30) (n + x / 30)
    have e : |n + H / 30 - (n + x / 30)| = |H - x| / 30 := by
      rw [show n + H / 30 - (n + x / 30) = (H - x) / 30 by ring, abs_div, abs_of_pos (by norm_num : (0:ℝ) < 30)]
    rw [e] at this
    calc _ ≤ (mx - mn) / 2 * (2 * (|H - x| / 30)) := by gcongr
      _ = |H - x| * (mx - mn) / 30 := by ring
      _ ≤ 1 / 400 / 30 := by gcongr
      _ ≤ _ := by norm_num
  have e3 : l - S * min l (1 - l) * lweight (n + H / 30) - y = (l - (mx + mn) / 2) - ((S * min l (1 - l) - (mx - mn) / 2) * lweight (n + H / 30) +
      (mx - mn) / 2 * (lweight (n + H / 30) - lweight (n + x / 30))) := by
    rw [hw, hy]; ring
  have e4 : |z - y| ≤ |z - (l - S * min l (1 - l) * lweight (n + H / 30))| + |l - S * min l (1 - l) * lweight (n + H / 30) - y| := abs_sub_le _ _ _
  rw [e3] at e4
  have e5 := abs_sub (l - (mx + mn) / 2) ((S * min l (1 - l) - (mx - mn) / 2) * lweight (n + H / 30) + (mx - mn) / 2 * (lweight (n + H / 30) - lweight (n + x / 30)))
  have e6 := abs_add_le ((S * min l (1 - l) - (mx - mn) / 2) * lweight (n + H / 30)) ((mx - mn) / 2 * (lweight (n + H / 30) - lweight (n + x / 30)))
  linarith

omit [FloatModel] [SmallError] [IntExact] in
/-- How far a turned hue is from the end of the circle, for colours whose channels are equal or clearly apart. -/
theorem turn_side {k : Sector} {u x δ : ℝ} (m : ℕ) (δ0 : 1 / 300 ≤ δ) (u0 : 0 ≤ u) (u1 : u ≤ 1) (hx : ∃ j : ℤ, x = k.hue u + 360 * j) (hu : u = 0 ∨ 1 / 300 ≤ δ * u)
    (hu' : u = 1 ∨ 1 / 300 ≤ δ * (1 - u)) : x + 60 * m = 360 ∧ (u = 0 ∨ u = 1) ∨ 1 / 5 ≤ |x + 60 * m - 360| * δ := by
  have δp : 0 < δ := by linarith
  -- the distance is 60 times an integer plus or minus the middle channel
  have hi : ∃ i : ℤ, x + 60 * m - 360 = 60 * (i + u) ∨ x + 60 * m - 360 = 60 * (i - u) := by
    obtain ⟨j, rfl⟩ := hx
    cases k
    · exact ⟨m - 6 + 6 * j, .inl (by simp only [Sector.hue]; push_cast; ring)⟩
    · exact ⟨m - 4 + 6 * j, .inr (by simp only [Sector.hue]; push_cast; ring)⟩
    · exact ⟨m - 4 + 6 * j, .inl (by simp only [Sector.hue]; push_cast; ring)⟩
    · exact ⟨m - 2 + 6 * j, .inr (by simp only [Sector.hue]; push_cast; ring)⟩
    · exact ⟨m - 2 + 6 * j, .inl (by simp only [Sector.hue]; push_cast; ring)⟩
    · exact ⟨m + 6 * j, .inr (by simp only [Sector.hue]; push_cast; ring)⟩
  -- whole sixths
  have whole : ∀ i : ℤ, x + 60 * m - 360 = 60 * i → (u = 0 ∨ u = 1) → x + 60 * m = 360 ∧ (u = 0 ∨ u = 1) ∨ 1 / 5 ≤ |x + 60 * m - 360| * δ := by
    intro i e h
    by_cases h0 : i = 0
    · left; rw [h0] at e; push_cast at e; exact ⟨by linarith, h⟩
    · right
      rw [e, abs_mul, abs_of_pos (by norm_num : (0:ℝ) < 60)]
      have : (1 : ℝ) ≤ |(i : ℝ)| := by exact_mod_cast Int.one_le_abs h0
      nlinarith
  have frac : ∀ y : ℝ, ∀ i : ℤ, 1 / 300 ≤ δ * y → 1 / 300 ≤ δ * (1 - y) → 1 / 5 ≤ |60 * ((i : ℝ) + y)| * δ := by
    intro y i h1 h2
    rw [abs_mul, abs_of_pos (by norm_num : (0:ℝ) < 60)]
    rcases le_or_gt 0 i with h | h
    · have : (0 : ℝ) ≤ i := by exact_mod_cast h
      have := le_abs_self ((i : ℝ) + y)
      nlinarith
    · have : (i : ℝ) ≤ -1 := by exact_mod_cast Int.le_sub_one_of_lt h
      have := neg_abs_le ((i : ℝ) + y)
      nlinarith
  obtain ⟨i, hi⟩ := hi
  rcases hu with rfl | hu
  · exact whole i (by rcases hi with e | e <;> rw [e] <;> ring) (.inl rfl)
  rcases hu' with rfl | hu'
  · rcases hi with e | e
    · exact whole (i + 1) (by rw [e]; push_cast; ring) (.inr rfl)
    · exact whole (i - 1) (by rw [e]; push_cast; ring) (.inr rfl)
  right
  rcases hi with e | e
  · rw [e]; exact frac u i hu hu'
  · rw [e, show (60 : ℝ) * (i - u) = 60 * (((i - 1 : ℤ) : ℝ) + (1 - u)) by push_cast; ring]
    exact frac (1 - u) (i - 1) hu' (by rw [sub_sub_cancel]; exact hu)

/-- Two channels are equal or clearly apart. -/
def Apart (x y : ℝ) : Prop := x = y ∨ 1 / 300 ≤ |x - y|

set_option maxHeartbeats 1600000 in
/-- RGB to HSL, `m` sixths of a turn, and back, for colours whose channels are equal or clearly apart. -/
theorem turn_near {c : Color} {r g b : ℝ} (h : IsRgb c r g b) (hbl : 1 / 1000 ≤ max (max r g) b) (a1 : Apart r g) (a2 : Apart g b) (a3 : Apart b r) (m : ℕ) (m2 : 2 ≤ m) (m4 : m ≤ 4)
    (f : Fl → Fl) (hf : ∀ x : ℝ, f (fin x) = rnd (x + 60 * m)) :
    ∃ x y z r1 g1 b1 r' g' b', Leaf.rgb_deep_to_hsl c = ok (obj .hsl x y z c.malpha c.space) ∧
      (sixth (max (max r g) b + min (min r g) b))^[m] (r, g, gapBlue r g b) = (r1, g1, b1) ∧ |r' - r1| ≤ 1 / 2000 ∧ |g' - g1| ≤ 1 / 2000 ∧ |b' - gapBlue r1 g1 b1| ≤ 1 / 2000 ∧
      (0 ≤ r' ∧ r' ≤ 1) ∧ (0 ≤ g' ∧ g' ≤ 1) ∧ (0 ≤ b' ∧ b' ≤ 1) ∧
      ∀ al sp, Leaf.hsl_to_rgb_deep (Color.mkHue .hsl (f (fin x)) (fin y) (fin z) al sp) = ok (obj .rgbDeep r' g' b' al sp) := by
  obtain ⟨-, -, r0, r1, g0, g1, b0, b1⟩ := id h
  rw [rgb_eq h]
  generalize c.malpha = al0
  generalize c.space = sp0
  simp only [Leaf.rgb_deep_to_hsl, obj_0, obj_1, obj_2, obj_space, obj_malpha, obj_alpha _ _ _ _ _ _ (rfl : Color.scalesAlpha .rgbDeep = false), ok_bind, fmin_fin, fmax_fin, feq_fin, Color.construct_hsl]
  have lim : ∀ v : Fl, ∀ x : ℝ, Color.clamp v 1 0 = fin x → 0 ≤ x ∧ x ≤ 1 := by
    intro v x hv
    have := Color.clamp_inRange v (mx := 1) (mn := 0) (by norm_num)
    simp only [one_def, zero_def] at hv
    rw [hv] at this; simpa using this
  -- from HSL to RGB
  have back : ∀ H S l : ℝ, l ≠ 0 → ∀ r' g' b' : ℝ, Color.clamp (Leaf.hslToRgb (fin H) (fin S) (fin l) (fin 0)) 1 0 = fin r' →
      Color.clamp (Leaf.hslToRgb (fin H) (fin S) (fin l) (fin 8)) 1 0 = fin g' → Color.clamp (Leaf.hslToRgb (fin H) (fin S) (fin l) (fin 4)) 1 0 = fin b' →
      ∀ al sp, Leaf.hsl_to_rgb_deep (obj .hsl H S l al sp) = ok (obj .rgbDeep r' g' b' al sp) := by
    intro H S l hl r' g' b' e1 e2 e3 al sp
    simp only [Leaf.hsl_to_rgb_deep, obj_0, obj_1, obj_2, obj_space, obj_malpha, obj_alpha _ _ _ _ _ _ (rfl : Color.scalesAlpha .hsl = false), ok_bind, Color.construct_rgbDeep,
      Color.mkRgbDeep]
    simp only [lit_def, one_def, zero_def, feq_fin, hl, if_false] at e1 e2 e3 ⊢
    rw [e1, e2, e3]; simp only [obj, Color.maxOf, Color.minOf, one_def, zero_def]
  by_cases hne : max (max r g) b = min (min r g) b
  · rw [if_pos hne]
    obtain ⟨rfl, rfl⟩ := grey_of hne
    rw [max_self, max_self] at hbl
    obtain ⟨H, eH, H0, H1⟩ := Color.clamp_inRange (Color.hueReduce (f (fin 0))) (mx := 359) (mn := 0) (by norm_num)
    have hv : ∀ n : ℝ, 0 ≤ n → n ≤ 8 → Near (Color.clamp (Leaf.hslToRgb (fin H) (fin 0) (fin b) (fin n)) 1 0) b (6 / 100000) := by
      intro n n0 n1
      have := hsl_value (H := H) (S := 0) (l := b) (n := n) H0 H1 le_rfl (by norm_num) b0 b1 n0 n1
      rw [zero_mul, zero_mul, sub_zero] at this
      exact this.clamp01 b0 b1
    obtain ⟨r', e1, n1⟩ := hv 0 (by norm_num) (by norm_num)
    obtain ⟨g', e2, n2⟩ := hv 8 (by norm_num) (by norm_num)
    obtain ⟨b', e3, n3⟩ := hv 4 (by norm_num) (by norm_num)
    rw [min_self, min_self, mkHue_grey _ _ _ ⟨rfl, rfl⟩ b0 b1]
    refine ⟨0, 0, b, b, b, b, r', g', b', rfl, ?_, by linarith, by linarith, ?_, lim _ _ e1, lim _ _ e2, lim _ _ e3, fun al sp => ?_⟩
    · rw [max_self, max_self, gapBlue_grey]; exact turn_grey m b
    · rw [gapBlue_grey]; linarith
    · have : Color.mkHue .hsl (f (fin 0)) (fin 0) (fin b) al sp = obj .hsl H 0 b al sp := by
        simp only [Color.mkHue, clamp01 b0 b1, clamp01 (x := 0) le_rfl zero_le_one]
        simp only [lit_def, zero_def] at eH ⊢
        rw [eH]; simp only [obj, Color.maxOf, Color.minOf, zero_def]
      rw [this]
      exact back _ _ _ (by linarith) _ _ _ e1 e2 e3 _ _
  · rw [if_neg hne]
    generalize hmx : max (max r g) b = mx at *
    generalize hmn : min (min r g) b = mn at *
    have hr1 : mn ≤ r := by rw [← hmn]; exact (min_le_left _ _).trans (min_le_left _ _)
    have hg1 : mn ≤ g := by rw [← hmn]; exact (min_le_left _ _).trans (min_le_right _ _)
    have hb1 : mn ≤ b := by rw [← hmn]; exact min_le_right _ _
    have hr2 : r ≤ mx := by rw [← hmx]; exact (le_max_left _ _).trans (le_max_left _ _)
    have hg2 : g ≤ mx := by rw [← hmx]; exact (le_max_right _ _).trans (le_max_left _ _)
    have hb2 : b ≤ mx := by rw [← hmx]; exact le_max_right _ _
    have hmn0 : 0 ≤ mn := by rw [← hmn]; exact le_min (le_min r0 g0) b0
    have hmx1 : mx ≤ 1 := by rw [← hmx]; exact max_le (max_le r1 g1) b1
    have hlt : mn < mx := lt_of_le_of_ne (hr1.trans hr2) (Ne.symm hne)
    -- the chroma
    have hδ : 1 / 300 ≤ mx - mn := by
      have bound : ∀ x y : ℝ, mn ≤ x → x ≤ mx → mn ≤ y → y ≤ mx → 1 / 300 ≤ |x - y| → 1 / 300 ≤ mx - mn := by
        intro x y x0 x1 y0 y1 hxy
        refine hxy.trans (abs_le.mpr ⟨?_, ?_⟩) <;> linarith
      rcases a1 with e1 | e1
      · rcases a2 with e2 | e2
        · exfalso; apply hne; rw [← hmx, ← hmn, e1, e2]; simp
        · exact bound _ _ hg1 hg2 hb1 hb2 e2
      · exact bound _ _ hr1 hr2 hg1 hg2 e1
    have δ1 : mx - mn ≤ 1 := by linarith
    obtain ⟨S, l, el, eS, S0, S1, l0, l1, nl, hS, -⟩ := lchroma_near hmn0 hmx1 hbl hlt.le
    rw [el]
    obtain ⟨H, x, k, u, b2, eH, H0, H1, u0, u1, hst, hn, er, eg, eb, hb⟩ := hue_near hmx hmn hmn0 hmx1 (by linarith)
    have hb' : b2 = gapBlue r g b := by
      rcases hb with ⟨e, hh⟩ | ⟨e, -⟩
      · rw [e, gapBlue, if_neg]
        intro hg
        have := hh hg
        rcases a2 with e2 | e2
        · exact absurd hg.1 (by rw [e2]; exact lt_irrefl _)
        · rw [abs_of_neg (by linarith [hg.1])] at e2; linarith
      · exact e
    have hxj : ∃ j : ℤ, x = k.hue u + 360 * j := by
      rcases hst with e | ⟨-, e⟩
      · exact ⟨0, by rw [e]; push_cast; ring⟩
      · exact ⟨-1, by rw [e]; push_cast; ring⟩
    have side : x + 60 * m = 360 ∧ H = x ∨ 1 / 5 ≤ |x + 60 * m - 360| * (mx - mn) := by
      rcases hb with ⟨e, -⟩ | ⟨e, hg⟩
      · rw [e] at eb
        have ap : ∀ y z v : ℝ, Apart y z → |y - z| = (mx - mn) * v → v = 0 ∨ 1 / 300 ≤ (mx - mn) * v := by
          intro y z v hyz e
          rcases hyz with h | h
          · left
            rw [h, sub_self, abs_zero] at e
            rcases mul_eq_zero.mp e.symm with h | h
            · linarith
            · exact h
          · right; rw [← e]; exact h
        have v0 : 0 ≤ (mx - mn) * u := mul_nonneg (by linarith) u0
        have v1 : 0 ≤ (mx - mn) * (1 - u) := mul_nonneg (by linarith) (by linarith)
        have up : ∀ y z : ℝ, y - z = (mx - mn) * u → |y - z| = (mx - mn) * u := fun y z h => by rw [h, abs_of_nonneg v0]
        have dn : ∀ y z : ℝ, z - y = (mx - mn) * u → |y - z| = (mx - mn) * u := fun y z h => by rw [abs_sub_comm, h, abs_of_nonneg v0]
        have up' : ∀ y z : ℝ, y - z = (mx - mn) * (1 - u) → |y - z| = (mx - mn) * (1 - u) := fun y z h => by rw [h, abs_of_nonneg v1]
        have dn' : ∀ y z : ℝ, z - y = (mx - mn) * (1 - u) → |y - z| = (mx - mn) * (1 - u) := fun y z h => by rw [abs_sub_comm, h, abs_of_nonneg v1]
        have hu : u = 0 ∨ 1 / 300 ≤ (mx - mn) * u := by
          cases k <;> simp only [Sector.red, Sector.green, Sector.blue] at er eg eb
          · exact ap _ _ _ a2 (up _ _ (by linarith))
          · exact ap _ _ _ a3 (dn _ _ (by linarith))
          · exact ap _ _ _ a3 (up _ _ (by linarith))
          · exact ap _ _ _ a1 (dn _ _ (by linarith))
          · exact ap _ _ _ a1 (up _ _ (by linarith))
          · exact ap _ _ _ a2 (dn _ _ (by linarith))
        have hu' : u = 1 ∨ 1 / 300 ≤ (mx - mn) * (1 - u) := by
          have : 1 - u = 0 ∨ 1 / 300 ≤ (mx - mn) * (1 - u) := by
            cases k <;> simp only [Sector.red, Sector.green, Sector.blue] at er eg eb
            · exact ap _ _ _ a1 (up' _ _ (by linarith))
            · exact ap _ _ _ a1 (dn' _ _ (by linarith))
            · exact ap _ _ _ a2 (up' _ _ (by linarith))
            · exact ap _ _ _ a2 (dn' _ _ (by linarith))
            · exact ap _ _ _ a3 (up' _ _ (by linarith))
            · exact ap _ _ _ a3 (dn' _ _ (by linarith))
          exact this.imp_left fun e => by linarith
        rcases turn_side m hδ u0 u1 hxj hu hu' with ⟨e1, e2⟩ | e1
        · refine .inl ⟨e1, ?_⟩
          have m2' : (2 : ℝ) ≤ m := by exact_mod_cast m2
          have m4' : (m : ℝ) ≤ 4 := by exact_mod_cast m4
          have hx : x = k.hue u := by
            rcases hst with h | ⟨rfl, h⟩
            · exact h
            · exfalso; simp only [Sector.hue] at h; linarith
          obtain ⟨-, p2, p3, p4⟩ := hue_pure hδ δ1 r g b
          have fin' : ∀ y : ℝ, Leaf.hueFromRgb (fin r) (fin g) (fin b) (fin mx) (fin mx - fin mn) = fin y → y = x → H = x := by
            rintro y e rfl
            rw [e, store_id (by linarith) (by linarith), fin_inj] at eH
            exact eH.symm
          rcases e2 with rfl | rfl <;> cases k <;> simp only [Sector.red, Sector.green, Sector.blue, Sector.hue] at er eg eb hx
          · exfalso; linarith
          · exact fin' _ (p2 ⟨by linarith, by linarith, by linarith⟩) (by linarith)
          · exact fin' _ (p2 ⟨by linarith, by linarith, by linarith⟩) (by linarith)
          · exact fin' _ (p4 ⟨by linarith, by linarith, by linarith⟩) (by linarith)
          · exact fin' _ (p4 ⟨by linarith, by linarith, by linarith⟩) (by linarith)
          · exfalso; linarith
          · exfalso; linarith
          · exfalso; linarith
          · exact fin' _ (p3 ⟨by linarith, by linarith, by linarith⟩) (by linarith)
          · exact fin' _ (p3 ⟨by linarith, by linarith, by linarith⟩) (by linarith)
          · exfalso; linarith
          · exfalso; linarith
        · exact .inr e1
      · right
        rw [e, gapBlue, if_pos hg] at eb
        have hbg : 1 / 300 ≤ b - g := by
          rcases a2 with h | h
          · exact absurd hg.1 (by rw [h]; exact lt_irrefl _)
          · rw [abs_of_neg (by linarith [hg.1])] at h; linarith
        have hgg := hg.2
        have hwide : 1 / 5 ≤ mx - mn := by linarith
        have er' : r = mx := by
          refine le_antisymm hr2 ?_
          rw [← hmx]; exact max_le (max_le le_rfl (by linarith)) (by linarith)
        have eg' : g = mn := by
          refine le_antisymm ?_ hg1
          rw [← hmn]; exact le_min (le_min (by linarith) le_rfl) (by linarith)
        rw [er', eg'] at eb
        have c1 : k.red u = 1 := mul_left_cancel₀ (a := mx - mn) (by linarith) (by linarith)
        have c2 : k.green u = 0 := mul_left_cancel₀ (a := mx - mn) (by linarith) (by linarith)
        have c3 : k.blue u = 1 / 60 := mul_left_cancel₀ (a := mx - mn) (by linarith) (by linarith)
        have m2' : (2 : ℝ) ≤ m := by exact_mod_cast m2
        have hx : x = 359 ∨ x = -1 := by
          have : k = .F ∧ u = 1 / 60 := by
            cases k <;> simp only [Sector.red, Sector.green, Sector.blue] at c1 c2 c3 <;> first | (exfalso; linarith) | exact ⟨rfl, c3⟩
          obtain ⟨rfl, rfl⟩ := this
          rcases hst with h | ⟨-, h⟩ <;> rw [h] <;> norm_num [Sector.hue]
        have m4' : (m : ℝ) ≤ 4 := by exact_mod_cast m4
        have : 1 ≤ |x + 60 * m - 360| := by
          rcases hx with rfl | rfl
          · exact le_trans (by linarith) (le_abs_self _)
          · exact le_trans (by linarith) (neg_le_abs _)
        calc (1 : ℝ) / 5 ≤ 1 * (mx - mn) := by linarith
          _ ≤ _ := by gcongr
    obtain ⟨H', x', j, eH', H0', H1', x0', x1', ex', hn'⟩ := turn_stored (by omega) (by omega) H0 H1 hδ δ1 hn side
    obtain ⟨k', u', i, u0', u1', hk', hch⟩ := turn_pos m k u0 u1
    obtain ⟨i', hi'⟩ := hxj
    obtain ⟨k2, u2, u02, u12, hst2, c1, c2, c3⟩ := lim_stands (k := k') (mn := mn) (δ := mx - mn) u0' u1' x0' x1' (j := -i - i' - j) (by rw [hk', ex', hi']; push_cast; ring) (by linarith)
    obtain ⟨w1, w2, w3⟩ := lweights_at u02 u12 hst2
    have hc := hch mn (mx - mn)
    rw [← er, ← eg, ← eb, hb', show 2 * mn + (mx - mn) = mx + mn by ring] at hc
    have hgb : mn ≤ gapBlue r g b ∧ gapBlue r g b ≤ mx := by
      unfold gapBlue
      split
      · rename_i hg; constructor <;> linarith [hg.1, hg.2]
      · exact ⟨hb1, hb2⟩
    obtain ⟨rr, gg, bb, hrr, hr3, hg3, hb3⟩ := turn_range m ⟨hr1, hr2⟩ ⟨hg1, hg2⟩ hgb
    rw [hrr, Prod.mk.injEq, Prod.mk.injEq] at hc
    obtain ⟨q1, q2, q3⟩ := hc
    rw [← q1] at c1 c3
    rw [← q2] at c2 c3
    rw [← q3] at c3
    have hb4 := gapBlue_range (hr3.2.trans hmx1) (hmn0.trans hg3.1) (hmn0.trans hb3.1) (hb3.2.trans hmx1)
    obtain ⟨r', e1, n1⟩ := (turned_channel (n := 0) l0 l1 nl S0 S1 H0' H1' (by norm_num) (by norm_num) (hS (by linarith)) (by linarith) hn' w1 c1.symm).clamp01 (hmn0.trans hr3.1) (hr3.2.trans hmx1)
    obtain ⟨g', e2, n2⟩ := (turned_channel (n := 8) l0 l1 nl S0 S1 H0' H1' (by norm_num) (by norm_num) (hS (by linarith)) (by linarith) hn' w2 c2.symm).clamp01 (hmn0.trans hg3.1) (hg3.2.trans hmx1)
    obtain ⟨b', e3, n3⟩ := (turned_channel (n := 4) l0 l1 nl S0 S1 H0' H1' (by norm_num) (by norm_num) (hS (by linarith)) (by linarith) hn' w3 c3.symm).clamp01 hb4.1 hb4.2
    refine ⟨H, S, l, rr, gg, bb, r', g', b', ?_, hrr, n1, n2, n3, lim _ _ e1, lim _ _ e2, lim _ _ e3, fun al sp => ?_⟩
    · simp only [Color.mkHue, eH, eS, clamp01 l0.le l1, obj, Color.maxOf, Color.minOf]
    · have : Color.mkHue .hsl (f (fin H)) (fin S) (fin l) al sp = obj .hsl H' S l al sp := by
        rw [hf]
        simp only [Color.mkHue, eH', clamp01 S0 S1, clamp01 l0.le l1, obj, Color.maxOf, Color.minOf]
      rw [this]
      exact back _ _ _ l0.ne' _ _ _ e1 e2 e3 _ _

end

end Hue
