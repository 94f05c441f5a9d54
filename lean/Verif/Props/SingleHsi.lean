import Verif.Props.SingleHcy

/-!
# The trip through HSI in single precision (C182)

`hsi_to_rgb_deep` forgets to add the smallest channel back, so every channel of a colour comes back too small by that amount (C43).
In single precision and with 8 bits per channel the error is a whole number of steps, and it can be said exactly which colours survive.
-/

open Outcome Fl Prog ObjectSpec ConvSpec Hue GapFine HcyFine

namespace HsiFine

/-- The slightly bluish reds in steps of 1/255. -/
theorem gap_steps {r g b m k E : ℝ} (nr : |r - (m + 60 * (k + 1) + E) / 255| ≤ 1.3e-7) (ng : |g - m / 255| ≤ 1.3e-7) (nb : |b - (m + k + 1) / 255| ≤ 1.3e-7)
    (k0 : 0 ≤ k) (E1 : 21 ≤ E) (E2 : E + 60 * k ≤ 195) (k2 : k ≤ 2) : 0.3 ≤ r - g ∧ 0.2 * (r - g) ≤ 60 * (b - g) ∧ 60 * (b - g) ≤ 0.9 * (r - g) := by
  rw [abs_le] at nr ng nb
  refine ⟨?_, ?_, ?_⟩ <;> (norm_num at *; linarith)

theorem gap_back {r g b m k E e x z : ℝ} (nr : |r - (m + 60 * (k + 1) + E) / 255| ≤ 1.3e-7) (ng : |g - m / 255| ≤ 1.3e-7) (nb : |b - (m + k + 1) / 255| ≤ 1.3e-7)
    (lo : 61 * e ≤ E + 30) (hi : E ≤ 61 * e + 30) (n1 : |x - (r + b - 2 * g) * 60 / 61| ≤ 2.01e-5) (n3 : |z - (r + b - 2 * g) / 61| ≤ 2.01e-5) :
    |x - (60 * (k + 1) + E - e) / 255| ≤ 1.955e-3 ∧ |z - (k + 1 + e) / 255| ≤ 1.955e-3 := by
  simp only [abs_le] at *
  refine ⟨⟨?_, ?_⟩, ⟨?_, ?_⟩⟩ <;> (norm_num at *; linarith)

theorem low_step {r R m : ℝ} (nr : |r - R / 255| ≤ 1.3e-7) (h : m ≤ R) : m / 255 - 1.3e-7 ≤ r := by
  rw [abs_le] at nr; linarith

theorem high_step {r R m M mn : ℝ} (nr : |r - R / 255| ≤ 1.3e-7) (nm : |mn - m / 255| ≤ 1.3e-7) (h : m + 1 ≤ R) (hM : r ≤ M) : 1 / 300 ≤ M - mn := by
  rw [abs_le] at nr nm; norm_num at *; linarith

theorem small_gap {r g b R G B : ℝ} (nr : |r - R / 255| ≤ 1.3e-7) (ng : |g - G / 255| ≤ 1.3e-7) (nb : |b - B / 255| ≤ 1.3e-7) (h : R + 60 * G ≤ G + 60 * B + 20) (h' : G + 1 ≤ B) :
    1 / 300 ≤ b - g ∧ r - g ≤ 60 * (b - g) + 21 / 255 := by
  rw [abs_le] at nr ng nb
  constructor <;> (norm_num at *; linarith)

theorem near_step {x v mn N m : ℝ} (h : |x - (v - mn)| ≤ 1.9e-3) (h' : |v - N / 255| ≤ 1.3e-7) (nm : |mn - m / 255| ≤ 1.3e-7) : |x - (N - m) / 255| ≤ 1.955e-3 := by
  rw [abs_le] at *
  constructor <;> (norm_num at *; linarith)

/-- The sum of the weights of the channels. -/
noncomputable def ws (h : ℝ) : ℝ := wr h + wg h + wb h

theorem fmod_two {x : ℝ} (z : ℤ) (hx : 0 ≤ x) (h1 : (z : ℝ) * 2 ≤ x) (h2 : x < (z + 1 : ℝ) * 2) : fmod (fin x) (fin 2) = fin (x - 2 * z) := by
  have : truncR (x / 2) = z := by
    unfold truncR
    rw [if_pos (by positivity), Int.floor_eq_iff]
    constructor <;> linarith
  simp [fmod, this]

/-- The weights at a hue given in sixths of the circle. -/
theorem weights_sixth (t : ℝ) : wr (60 * t) = ramp (|t - 3| - 1) ∧ wg (60 * t) = ramp (2 - |t - 2|) ∧ wb (60 * t) = ramp (2 - |t - 4|) := by
  have e : 60 * t / 60 = t := by ring
  simp only [wr, wg, wb, e, and_self]

/-- Which of the three weights `x` multiplies. -/
inductive Place (W : ℝ) (v : Fl → Fl → Fl) (z : ℝ) : Prop
  | full : W = 1 → (∀ C X, v C X = C) → Place W v z
  | part : W = z → (∀ C X, v C X = X) → Place W v z
  | none : W = 0 → (∀ C X, v C X = fin 0) → Place W v z

/-- The six sectors as the code takes them. -/
theorem sector_place {t : ℝ} (t0 : 0 ≤ t) (t6 : t < 6) : ∃ f z v1 v2 v3, fmod (fin t) (fin 2) = fin f ∧ z = 1 - |f - 1| ∧ 0 ≤ z ∧ z ≤ 1 ∧ 0 ≤ f ∧ f < 2 ∧ ws (60 * t) = 1 + z ∧
    (∀ C X, Leaf.sector (fin t) C X = [v1 C X, v2 C X, v3 C X]) ∧ Place (wr (60 * t)) v1 z ∧ Place (wg (60 * t)) v2 z ∧ Place (wb (60 * t)) v3 z := by
  obtain ⟨e1, e2, e3⟩ := weights_sixth t
  unfold ws
  rw [e1, e2, e3]
  have hs : ∀ C X : Fl, Leaf.sector (fin t) C X = if 0 ≤ t ∧ t ≤ 1 then [C, X, fin 0] else if 1 < t ∧ t ≤ 2 then [X, C, fin 0] else if 2 < t ∧ t ≤ 3 then [fin 0, C, X]
      else if 3 < t ∧ t ≤ 4 then [fin 0, X, C] else if 4 < t ∧ t ≤ 5 then [X, fin 0, C] else if 5 < t ∧ t ≤ 6 then [C, fin 0, X] else [fin 0, fin 0, fin 0] := by
    intro C X
    simp only [Leaf.sector, lit_def, zero_def, one_def, fin_le, fin_lt]
  have ab : ∀ a : ℝ, 0 ≤ a → |a| = a := fun a h => abs_of_nonneg h
  have an : ∀ a : ℝ, a ≤ 0 → |a| = -a := fun a h => abs_of_nonpos h
  have r0 : ∀ a : ℝ, a ≤ 0 → ramp a = 0 := fun a h => by rw [ramp, max_eq_right h, min_eq_left (by norm_num)]
  have r1 : ∀ a : ℝ, 1 ≤ a → ramp a = 1 := fun a h => by rw [ramp, max_eq_left (by linarith), min_eq_right h]
  have r2 : ∀ a : ℝ, 0 ≤ a → a ≤ 1 → ramp a = a := fun a h h' => by rw [ramp, max_eq_left h, min_eq_left h']
  by_cases c1 : t ≤ 1
  · have k1 : ramp (|t - 3| - 1) = 1 := r1 _ (by rw [an _ (by linarith)]; linarith)
    have k2 : ramp (2 - |t - 2|) = t := by rw [an _ (by linarith), r2 _ (by linarith) (by linarith)]; ring
    have k3 : ramp (2 - |t - 4|) = 0 := r0 _ (by rw [an _ (by linarith)]; linarith)
    rw [k1, k2, k3]
    refine ⟨t, t, fun C _ => C, fun _ X => X, fun _ _ => fin 0, fmod_lt (by norm_num) (by linarith) (by linarith), ?_, t0, c1, t0, by linarith, by ring, ?_, .full rfl fun _ _ => rfl, .part rfl fun _ _ => rfl, .none rfl fun _ _ => rfl⟩
    · rw [an _ (by linarith)]; ring
    · intro C X; rw [hs, if_pos ⟨t0, c1⟩]
  by_cases c2 : t ≤ 2
  · have k1 : ramp (|t - 3| - 1) = 2 - t := by rw [an _ (by linarith), r2 _ (by linarith) (by linarith)]; ring
    have k2 : ramp (2 - |t - 2|) = 1 := r1 _ (by rw [an _ (by linarith)]; linarith)
    have k3 : ramp (2 - |t - 4|) = 0 := r0 _ (by rw [an _ (by linarith)]; linarith)
    rw [k1, k2, k3]
    have hsec : ∀ C X, Leaf.sector (fin t) C X = [X, C, fin 0] := fun C X => by rw [hs, if_neg (fun h => c1 h.2), if_pos ⟨by linarith, c2⟩]
    rcases c2.eq_or_lt with rfl | c2'
    · refine ⟨0, 2 - 2, fun _ X => X, fun C _ => C, fun _ _ => fin 0, ?_, by norm_num, by norm_num, by norm_num, by norm_num, by norm_num, by norm_num, hsec, .part rfl fun _ _ => rfl, .full rfl fun _ _ => rfl, .none rfl fun _ _ => rfl⟩
      rw [fmod_two 1 (by norm_num) (by norm_num) (by norm_num)]; norm_num
    · refine ⟨t, 2 - t, fun _ X => X, fun C _ => C, fun _ _ => fin 0, fmod_lt (by norm_num) (by linarith) (by linarith), ?_, by linarith, by linarith, by linarith, by linarith, by ring, hsec, .part rfl fun _ _ => rfl, .full rfl fun _ _ => rfl, .none rfl fun _ _ => rfl⟩
      rw [ab _ (by linarith)]; ring
  by_cases c3 : t ≤ 3
  · have k1 : ramp (|t - 3| - 1) = 0 := r0 _ (by rw [an _ (by linarith)]; linarith)
    have k2 : ramp (2 - |t - 2|) = 1 := r1 _ (by rw [ab _ (by linarith)]; linarith)
    have k3 : ramp (2 - |t - 4|) = t - 2 := by rw [an _ (by linarith), r2 _ (by linarith) (by linarith)]; ring
    rw [k1, k2, k3]
    refine ⟨t - 2, t - 2, fun _ _ => fin 0, fun C _ => C, fun _ X => X, ?_, ?_, by linarith, by linarith, by linarith, by linarith, by ring, ?_, .none rfl fun _ _ => rfl, .full rfl fun _ _ => rfl, .part rfl fun _ _ => rfl⟩
    · rw [fmod_two 1 t0 (by norm_num; linarith) (by norm_num; linarith)]; norm_num
    · rw [an _ (by linarith)]; ring
    · intro C X; rw [hs, if_neg (fun h => c1 h.2), if_neg (fun h => c2 h.2), if_pos ⟨by linarith, c3⟩]
  by_cases c4 : t ≤ 4
  · have k1 : ramp (|t - 3| - 1) = 0 := r0 _ (by rw [ab _ (by linarith)]; linarith)
    have k2 : ramp (2 - |t - 2|) = 4 - t := by rw [ab _ (by linarith), r2 _ (by linarith) (by linarith)]; ring
    have k3 : ramp (2 - |t - 4|) = 1 := r1 _ (by rw [an _ (by linarith)]; linarith)
    rw [k1, k2, k3]
    have hsec : ∀ C X, Leaf.sector (fin t) C X = [fin 0, X, C] := fun C X => by
      rw [hs, if_neg (fun h => c1 h.2), if_neg (fun h => c2 h.2), if_neg (fun h => c3 h.2), if_pos ⟨by linarith, c4⟩]
    rcases c4.eq_or_lt with rfl | c4'
    · refine ⟨0, 4 - 4, fun _ _ => fin 0, fun _ X => X, fun C _ => C, ?_, by norm_num, by norm_num, by norm_num, by norm_num, by norm_num, by norm_num, hsec, .none rfl fun _ _ => rfl, .part rfl fun _ _ => rfl, .full rfl fun _ _ => rfl⟩
      rw [fmod_two 2 (by norm_num) (by norm_num) (by norm_num)]; norm_num
    · refine ⟨t - 2, 4 - t, fun _ _ => fin 0, fun _ X => X, fun C _ => C, ?_, ?_, by linarith, by linarith, by linarith, by linarith, by ring, hsec, .none rfl fun _ _ => rfl, .part rfl fun _ _ => rfl, .full rfl fun _ _ => rfl⟩
      · rw [fmod_two 1 t0 (by norm_num; linarith) (by norm_num; linarith)]; norm_num
      · rw [ab _ (by linarith)]; ring
  by_cases c5 : t ≤ 5
  · have k1 : ramp (|t - 3| - 1) = t - 4 := by rw [ab _ (by linarith), r2 _ (by linarith) (by linarith)]; ring
    have k2 : ramp (2 - |t - 2|) = 0 := r0 _ (by rw [ab _ (by linarith)]; linarith)
    have k3 : ramp (2 - |t - 4|) = 1 := r1 _ (by rw [ab _ (by linarith)]; linarith)
    rw [k1, k2, k3]
    refine ⟨t - 4, t - 4, fun _ X => X, fun _ _ => fin 0, fun C _ => C, ?_, ?_, by linarith, by linarith, by linarith, by linarith, by ring, ?_, .part rfl fun _ _ => rfl, .none rfl fun _ _ => rfl, .full rfl fun _ _ => rfl⟩
    · rw [fmod_two 2 t0 (by norm_num; linarith) (by norm_num; linarith)]; norm_num
    · rw [an _ (by linarith)]; ring
    · intro C X
      rw [hs, if_neg (fun h => c1 h.2), if_neg (fun h => c2 h.2), if_neg (fun h => c3 h.2), if_neg (fun h => c4 h.2), if_pos ⟨by linarith, c5⟩]
  · have k1 : ramp (|t - 3| - 1) = 1 := r1 _ (by rw [ab _ (by linarith)]; linarith)
    have k2 : ramp (2 - |t - 2|) = 0 := r0 _ (by rw [ab _ (by linarith)]; linarith)
    have k3 : ramp (2 - |t - 4|) = 6 - t := by rw [ab _ (by linarith), r2 _ (by linarith) (by linarith)]; ring
    rw [k1, k2, k3]
    refine ⟨t - 4, 6 - t, fun C _ => C, fun _ _ => fin 0, fun _ X => X, ?_, ?_, by linarith, by linarith, by linarith, by linarith, by ring, ?_, .full rfl fun _ _ => rfl, .none rfl fun _ _ => rfl, .part rfl fun _ _ => rfl⟩
    · rw [fmod_two 2 t0 (by norm_num; linarith) (by norm_num; linarith)]; norm_num
    · rw [ab _ (by linarith)]; ring
    · intro C X
      rw [hs, if_neg (fun h => c1 h.2), if_neg (fun h => c2 h.2), if_neg (fun h => c3 h.2), if_neg (fun h => c4 h.2), if_neg (fun h => c5 h.2), if_pos ⟨by linarith, t6.le⟩]

/-- The share of a channel changes slowly with the hue. -/
theorem share_lip {w w' W W' ε : ℝ} (hW : 1 ≤ W) (hW' : 1 ≤ W') (w0 : 0 ≤ w') (w1 : w' ≤ 1) (h : |w - w'| ≤ ε) (h' : |W - W'| ≤ 3 * ε) : |w / W - w' / W'| ≤ 4 * ε := by
  have ε0 := (abs_nonneg _).trans h
  have Wp : 0 < W := by linarith
  have Wp' : 0 < W' := by linarith
  have e : w / W - w' / W' = (w - w') / W + w' / W' * ((W' - W) / W) := by field_simp; ring
  have q : 0 ≤ w' / W' ∧ w' / W' ≤ 1 := ⟨by positivity, by rw [div_le_one Wp']; linarith⟩
  have a1 : |(w - w') / W| ≤ ε := by
    rw [abs_div, abs_of_pos Wp, div_le_iff₀ Wp]
    nlinarith
  have a2 : |(W' - W) / W| ≤ 3 * ε := by
    rw [abs_div, abs_of_pos Wp, div_le_iff₀ Wp, abs_sub_comm]
    nlinarith
  rw [e]
  refine (abs_add_le _ _).trans ?_
  rw [abs_mul, abs_of_nonneg q.1]
  have := mul_le_mul q.2 a2 (abs_nonneg _) (by norm_num)
  linarith

theorem ws_ge {t : ℝ} (t0 : 0 ≤ t) (t6 : t < 6) : 1 ≤ ws (60 * t) := by
  obtain ⟨f, z, _, _, _, -, -, z0, -, -, -, e, -⟩ := sector_place t0 t6
  linarith

section
variable [FloatModel] [FineError]

/-- The intensity times the saturation, as the code computes them. -/
theorem rest_fine {r g b mn : ℝ} (hr : mn ≤ r) (hg : mn ≤ g) (hb : mn ≤ b) (m0 : 0 ≤ mn) (r1 : r ≤ 1) (g1 : g ≤ 1) (b1 : b ≤ 1) (far : mn + 1 / 1000 ≤ (r + g + b) / 3) :
    ∃ I s, Color.clamp ((fin r + fin g + fin b) / 3) 1 0 = fin I ∧ Color.clamp (1 - fin mn / ((fin r + fin g + fin b) / 3)) 1 0 = fin s ∧ 0 < I ∧ I ≤ 1 ∧ 0 < s ∧ s ≤ 1 ∧
      |3 * I * s - (r + g + b - 3 * mn)| ≤ 4e-6 := by
  have n1 := nadd (near_fin r) (near_fin g) 2 2.5e-7 (by rw [abs_of_nonneg (by linarith)]; linarith) (by norm_num) (by norm_num)
  have n2 := nadd n1 (near_fin b) 3 6.2e-7 (by rw [abs_of_nonneg (by linarith)]; linarith) (by norm_num) (by norm_num)
  obtain ⟨p, ep, np⟩ := n2
  obtain ⟨J, eJ, nJ⟩ : Near ((fin r + fin g + fin b) / 3) ((r + g + b) / 3) 3.5e-7 := by
    rw [ep, lit_def, fin_div _ _ (by norm_num)]
    refine rounded (ε := 2.1e-7) (M := 1) ?_ (by rw [abs_of_nonneg (by linarith)]; linarith) _ (by norm_num) (by norm_num)
    rw [show p / 3 - (r + g + b) / 3 = (p - (r + g + b)) / 3 by ring, abs_div, abs_of_pos (by norm_num : (0 : ℝ) < 3)]
    norm_num at *; linarith
  have nJ' := abs_le.mp nJ
  have Jp : 0 < J := by norm_num at *; linarith
  have J2 : mn + 9 / 10000 ≤ J := by norm_num at *; linarith
  have nJ2 : Near ((fin r + fin g + fin b) / 3) ((r + g + b) / 3) 3.5e-7 := ⟨J, eJ, nJ⟩
  obtain ⟨I, eI, nI⟩ := nJ2.clamp01 (by linarith) (by linarith)
  have nI' := abs_le.mp nI
  have I1 : I ≤ 1 := by
    have := Color.clamp_inRange ((fin r + fin g + fin b) / 3) (mx := 1) (mn := 0) (by norm_num)
    simp only [one_def, zero_def, lit_def] at eI this
    rw [eI] at this
    simp only [inRange_fin] at this
    exact this.2
  -- the quotient
  have q0 : 0 ≤ mn / J := by positivity
  have q1 : mn / J ≤ 1 := by rw [div_le_one Jp]; linarith
  obtain ⟨q, eq, nq⟩ := round0 (r := mn / J) q0 (by linarith)
  have nq2 : |q - mn / J| ≤ 1.21e-7 := nq.trans (by norm_num at *; linarith)
  have n3 : Near (fin mn / ((fin r + fin g + fin b) / 3)) (mn / J) 1.21e-7 := by
    rw [eJ, fin_div _ _ Jp.ne', eq]; exact ⟨q, rfl, nq2⟩
  have n4 := nsub (near_fin 1) n3 1 2.5e-7 (by rw [abs_of_nonneg (by linarith)]; linarith) (by norm_num) (by norm_num)
  rw [← one_def] at n4
  obtain ⟨s, es, ns⟩ := n4.clamp01 (by linarith) (by linarith)
  have ns' := abs_le.mp ns
  have s1 : s ≤ 1 := by
    have := Color.clamp_inRange (1 - fin mn / ((fin r + fin g + fin b) / 3)) (mx := 1) (mn := 0) (by norm_num)
    simp only [one_def, zero_def, lit_def] at es this
    rw [es] at this
    simp only [inRange_fin] at this
    exact this.2
  have sJ : J * (1 - mn / J) = J - mn := by field_simp
  have s0 : 8 / 10000 ≤ 1 - mn / J := by
    have : mn / J ≤ 1 - 8 / 10000 := by
      rw [div_le_iff₀ Jp]
      have : J ≤ 1.1 := by norm_num at *; linarith
      norm_num at *; nlinarith
    linarith
  refine ⟨I, s, eI, es, by norm_num at *; linarith, I1, by norm_num at *; linarith, s1, ?_⟩
  have e : 3 * I * s - (r + g + b - 3 * mn) = 3 * (I - J) * s + 3 * (J * (s - (1 - mn / J))) + 3 * (J - (r + g + b) / 3) := by
    have : J * (s - (1 - mn / J)) = J * s - (J - mn) := by rw [mul_sub, sJ]
    rw [this]; ring
  have a1 : |(I - J) * s| ≤ 7e-7 := by
    rw [abs_mul, abs_of_nonneg (a := s) (by norm_num at *; linarith)]
    have : |I - J| ≤ 7e-7 := by rw [abs_le]; constructor <;> (norm_num at *; linarith)
    have := mul_le_mul this s1 (by norm_num at *; linarith) (by norm_num)
    linarith
  have a2 : |J * (s - (1 - mn / J))| ≤ 2.6e-7 := by
    rw [abs_mul, abs_of_pos Jp]
    have : J ≤ 1.01 := by norm_num at *; linarith
    have := mul_le_mul this ns (abs_nonneg _) (by norm_num)
    norm_num at *; linarith
  rw [e]
  rw [abs_le] at a1 a2 ⊢
  constructor <;> (norm_num at *; linarith)

/-- What `hsi_to_rgb_deep` computes: the rest shared out according to the hue. -/
theorem hsi_value {H I s S : ℝ} (H0 : 0 ≤ H) (H1 : H ≤ 359) (s0 : 0 < s) (s1 : s ≤ 1) (I0 : 0 < I) (I1 : I ≤ 1) (S0 : 0 ≤ S) (S2 : S ≤ 2) (hS : |3 * I * s - S| ≤ 4e-6) (al : Fl) (sp : Option Nat) :
    ∃ x1 x2 x3, Leaf.hsi_to_rgb_deep (obj .hsi H s I al sp) = ok (Color.mkRgbDeep x1 x2 x3 al sp) ∧
      Near x1 (S * (wr H / ws H)) 2e-5 ∧ Near x2 (S * (wg H / ws H)) 2e-5 ∧ Near x3 (S * (wb H / ws H)) 2e-5 := by
  have q0 : 0 ≤ H / 60 := by positivity
  obtain ⟨t, et, nt⟩ := round0 (r := H / 60) q0 (by linarith)
  have nt' : |t - H / 60| ≤ 7.3e-7 := nt.trans (by norm_num at *; linarith)
  have t0 : 0 ≤ t := by
    have : rnd (0 : ℝ) ≤ rnd (H / 60) := FloatModel.rnd_mono _ _ q0
    rw [FloatModel.rnd_zero, et] at this
    simpa using this
  have t6 : t < 6 := by have := abs_le.mp nt'; norm_num at *; linarith
  obtain ⟨f, z, v1, v2, v3, ef, ez, z0, z1, f0, f2, hw, hs, p1, p2, p3⟩ := sector_place t0 t6
  -- the middle channel
  have nz : Near (fin 1 - Fl.abs (fin f - fin 1)) z 2.5e-7 := by
    have k1 := (nsub (near_fin f) (near_fin 1) 1 1.21e-7 (by rw [abs_le]; constructor <;> linarith) (by norm_num) (by norm_num)).abs
    have k2 := nsub (near_fin 1) k1 1 2.5e-7 (by rw [← ez, abs_of_nonneg z0]; exact z1) (by norm_num) (by norm_num)
    rwa [← ez] at k2
  have nW : Near (fin 1 + (fin 1 - Fl.abs (fin f - fin 1))) (1 + z) 5e-7 :=
    nadd (near_fin 1) nz 2 5e-7 (by rw [abs_of_nonneg (by linarith)]; linarith) (by norm_num) (by norm_num)
  obtain ⟨W, eW, hW⟩ := nW
  have hW' := abs_le.mp hW
  have Wp : 0 < W := by norm_num at *; linarith
  -- the rest
  have n1 := nmul (near_fin 3) (near_fin I) 3 1 3.7e-7 (by norm_num) (by rw [abs_of_pos I0]; exact I1) (by norm_num) (by norm_num)
  have n2 := nmul n1 (near_fin s) 3 1 7.4e-7 (by rw [abs_of_nonneg (by positivity)]; linarith) (by rw [abs_of_pos s0]; exact s1) (by norm_num) (by norm_num)
  obtain ⟨T, eT, nT⟩ := n2
  have nT2 : |T - S| ≤ 5e-6 := by
    have := abs_sub_le T (3 * I * s) S
    norm_num at *; linarith
  have nT' := abs_le.mp nT2
  -- chroma
  have Vp : 0 < 1 + z := by linarith
  have nC : Near (fin T / fin W) (S / (1 + z)) 8e-6 := by
    rw [fin_div _ _ Wp.ne']
    have hd : |T / W - S / (1 + z)| ≤ 7e-6 := by
      have e : T / W - S / (1 + z) = (T - S) / W + S / (1 + z) * ((1 + z - W) / W) := by field_simp; ring
      have a1 : |(T - S) / W| ≤ 5.1e-6 := by
        rw [abs_div, abs_of_pos Wp, div_le_iff₀ Wp]
        norm_num at *; linarith
      have a2 : |(1 + z - W) / W| ≤ 5.1e-7 := by
        rw [abs_div, abs_of_pos Wp, div_le_iff₀ Wp, abs_sub_comm]
        norm_num at *; linarith
      have b0 : 0 ≤ S / (1 + z) := by positivity
      have b1 : S / (1 + z) ≤ 2 := by rw [div_le_iff₀ Vp]; linarith
      rw [e]
      refine (abs_add_le _ _).trans ?_
      rw [abs_mul, abs_of_nonneg b0]
      have := mul_le_mul b1 a2 (abs_nonneg _) (by norm_num)
      norm_num at *; linarith
    exact rounded hd (by rw [abs_of_nonneg (by positivity), div_le_iff₀ Vp]; linarith : |S / (1 + z)| ≤ 2) _ (by norm_num) (by norm_num)
  have nX := nmul nC nz 2 1 1e-5 (by rw [abs_of_nonneg (by positivity), div_le_iff₀ Vp]; linarith) (by rw [abs_of_nonneg z0]; exact z1) (by norm_num) (by norm_num)
  set C := fin T / fin W with hC
  set X := C * (fin 1 - Fl.abs (fin f - fin 1)) with hX
  refine ⟨v1 C X, v2 C X, v3 C X, ?_, ?_⟩
  · simp only [Leaf.hsi_to_rgb_deep, obj_0, obj_1, obj_2, obj_space, obj_alpha _ _ _ _ _ _ (rfl : Color.scalesAlpha .hsi = false), ok_bind, zero_def, feq_fin, s0.ne', if_false, lit_def, one_def]
    rw [fin_div _ _ (by norm_num), et, ef, eW, eT, ← hC, ← hX, hs, Color.construct_rgbDeep]
  · have far : |H - 60 * t| ≤ 5e-5 := by
      rw [abs_le] at nt' ⊢; constructor <;> (norm_num at *; linarith)
    have far' : |H - 60 * t| / 60 ≤ 5e-5 / 60 := by gcongr
    have l1 := (wr_lip H (60 * t)).trans far'
    have l2 := (wg_lip H (60 * t)).trans far'
    have l3 := (wb_lip H (60 * t)).trans far'
    have ls : |ws H - ws (60 * t)| ≤ 3 * (5e-5 / 60) := by
      unfold ws
      rw [abs_le] at l1 l2 l3 ⊢; constructor <;> linarith
    have hH : 1 ≤ ws H := by
      have := ws_ge (t := H / 60) q0 (by linarith)
      rwa [show 60 * (H / 60) = H by ring] at this
    have ht : 1 ≤ ws (60 * t) := ws_ge t0 t6
    have fit : ∀ (w w' : ℝ) (v : Fl → Fl → Fl), Place w' v z → 0 ≤ w' → w' ≤ 1 → |w - w'| ≤ 5e-5 / 60 → Near (v C X) (S * (w / ws H)) 2e-5 := by
      intro w w' v hp w0 w1 hw'
      have sh := share_lip hH ht w0 w1 hw' ls
      have near' : Near (v C X) (S * (w' / ws (60 * t))) 1e-5 := by
        rw [hw]
        rcases hp with ⟨e, h⟩ | ⟨e, h⟩ | ⟨e, h⟩
        · rw [h, e, show S * (1 / (1 + z)) = S / (1 + z) by ring]; exact nC.weaken (by norm_num)
        · rw [h, e, show S * (z / (1 + z)) = S / (1 + z) * z by ring]; exact nX
        · rw [h, e, zero_div, mul_zero]; exact (near_fin 0).weaken (by norm_num)
      obtain ⟨y, ey, ny⟩ := near'
      refine ⟨y, ey, ?_⟩
      have : |S * (w' / ws (60 * t)) - S * (w / ws H)| ≤ 7e-6 := by
        rw [← mul_sub, abs_mul, abs_of_nonneg S0, abs_sub_comm]
        have := mul_le_mul S2 sh (abs_nonneg _) (by norm_num)
        norm_num at *; linarith
      have := abs_sub_le y (S * (w' / ws (60 * t))) (S * (w / ws H))
      norm_num at *; linarith
    exact ⟨fit _ _ _ p1 (ramp_range _).1 (ramp_range _).2 l1, fit _ _ _ p2 (ramp_range _).1 (ramp_range _).2 l2, fit _ _ _ p3 (ramp_range _).1 (ramp_range _).2 l3⟩


/-- The trip through HSI, given the stored hue. -/
theorem hsi_out {c : Color} {r g b mx mn S H η a1 a2 a3 : ℝ} (h : IsRgb c r g b) (hmx : max (max r g) b = mx) (hmn : min (min r g) b = mn)
    (far : mn + 1 / 1000 ≤ (r + g + b) / 3) (hS : S = r + g + b - 3 * mn) (S2 : S ≤ 2)
    (eH : Color.clamp (Color.hueReduce (Leaf.hueFromRgb (fin r) (fin g) (fin b) (fin mx) (fin mx - fin mn))) 359 0 = fin H) (H0 : 0 ≤ H) (H1 : H ≤ 359)
    (h1 : |S * (wr H / ws H) - a1| ≤ η) (h2 : |S * (wg H / ws H) - a2| ≤ η) (h3 : |S * (wb H / ws H) - a3| ≤ η)
    (r1 : 0 ≤ a1 ∧ a1 ≤ 1) (r2 : 0 ≤ a2 ∧ a2 ≤ 1) (r3 : 0 ≤ a3 ∧ a3 ≤ 1) :
    ∃ d r' g' b', Leaf.rgb_deep_to_hsi c = ok d ∧ Leaf.hsi_to_rgb_deep d = ok { c with comps := [fin r', fin g', fin b'] } ∧
      |r' - a1| ≤ 2e-5 + η ∧ |g' - a2| ≤ 2e-5 + η ∧ |b' - a3| ≤ 2e-5 + η := by
  obtain ⟨-, -, p1, p2, p3, p4, p5, p6⟩ := id h
  have hr1 : mn ≤ r := by rw [← hmn]; exact (min_le_left _ _).trans (min_le_left _ _)
  have hg1 : mn ≤ g := by rw [← hmn]; exact (min_le_left _ _).trans (min_le_right _ _)
  have hb1 : mn ≤ b := by rw [← hmn]; exact min_le_right _ _
  have hr2 : r ≤ mx := by rw [← hmx]; exact (le_max_left _ _).trans (le_max_left _ _)
  have hg2 : g ≤ mx := by rw [← hmx]; exact (le_max_right _ _).trans (le_max_left _ _)
  have hb2 : b ≤ mx := by rw [← hmx]; exact le_max_right _ _
  have hmn0 : 0 ≤ mn := by rw [← hmn]; exact le_min (le_min p1 p3) p5
  have hne : mx ≠ mn := by intro e; linarith
  obtain ⟨I, s, eI, es, I0, I1, s0, s1, nS⟩ := rest_fine hr1 hg1 hb1 hmn0 p2 p4 p6 far
  rw [← hS] at nS
  obtain ⟨x1, x2, x3, e, n1, n2, n3⟩ := hsi_value H0 H1 s0 s1 I0 I1 (by rw [hS]; linarith) S2 nS c.malpha c.space
  have step : ∀ (x : Fl) (t a : ℝ), Near x t 2e-5 → |t - a| ≤ η → 0 ≤ a → a ≤ 1 → Near (Color.clamp x 1 0) a (2e-5 + η) := by
    rintro x t a ⟨y, ey, ny⟩ hta a0 a1
    refine Near.clamp01 ⟨y, ey, ?_⟩ a0 a1
    have := abs_sub_le y t a
    linarith
  obtain ⟨r', e1, m1⟩ := step _ _ _ n1 h1 r1.1 r1.2
  obtain ⟨g', e2, m2⟩ := step _ _ _ n2 h2 r2.1 r2.2
  obtain ⟨b', e3, m3⟩ := step _ _ _ n3 h3 r3.1 r3.2
  refine ⟨obj .hsi H s I c.malpha c.space, r', g', b', ?_, ?_, m1, m2, m3⟩
  · rw [rgb_eq h]
    simp only [Leaf.rgb_deep_to_hsi, obj_0, obj_1, obj_2, obj_space, obj_malpha, obj_alpha _ _ _ _ _ _ (rfl : Color.scalesAlpha .rgbDeep = false), ok_bind, fmin_fin, fmax_fin, feq_fin,
      Color.construct_hsi, hmx, hmn]
    rw [if_neg hne]
    simp only [Color.mkHue, eH, eI, es, obj, Color.maxOf, Color.minOf]
  · rw [e, ← obj_rgb h]
    simp only [Color.mkRgbDeep, e1, e2, e3, obj, Color.maxOf, Color.minOf]

theorem weights_359 : wr 359 = 1 ∧ wg 359 = 0 ∧ wb 359 = 1 / 60 ∧ ws 359 = 61 / 60 := by
  have h1 : wr 359 = 1 := by unfold wr ramp; rw [abs_of_nonneg (by norm_num), max_eq_left (by norm_num), min_eq_right (by norm_num)]
  have h2 : wg 359 = 0 := by unfold wg ramp; rw [abs_of_nonneg (by norm_num), max_eq_right (by norm_num), min_eq_left (by norm_num)]
  have h3 : wb 359 = 1 / 60 := by unfold wb ramp; rw [abs_of_nonneg (by norm_num), max_eq_left (by norm_num), min_eq_left (by norm_num)]; norm_num
  refine ⟨h1, h2, h3, ?_⟩
  unfold ws; rw [h1, h2, h3]; norm_num

/-- A wider window than `GapFine.Window`. -/
theorem hue_wide {r g b : ℝ} (g0 : 0 ≤ g) (r1 : r ≤ 1) (wide : 0.3 ≤ r - g) (low : 0.2 * (r - g) ≤ 60 * (b - g)) (high : 60 * (b - g) ≤ 0.9 * (r - g)) :
    Color.clamp (Color.hueReduce (Leaf.hueFromRgb (fin r) (fin g) (fin b) (fin r) (fin r - fin g))) 359 0 = fin 359 := by
  set δ := r - g with hδ
  have δ1 : δ ≤ 1 := by linarith
  have δp : 0 < δ := by norm_num at *; linarith
  obtain ⟨d, ed, nd⟩ := diff_near (x := r) (y := g) (by rw [← hδ, abs_of_pos δp]; exact δ1)
  have hgb : |g - b| ≤ δ := by rw [abs_le]; constructor <;> (norm_num at *; linarith)
  obtain ⟨p, ep, np⟩ := diff_near (hgb.trans δ1)
  obtain ⟨q, eq, nq, bq, -⟩ := quot_near hgb np nd (by norm_num at *; linarith) δ1
  obtain ⟨h, eh, nh, -⟩ := sixty (bq.trans (by norm_num))
  have bq' := abs_le.mp bq
  have hcode : Leaf.hueFromRgb (fin r) (fin g) (fin b) (fin r) (fin r - fin g) = fin h := by
    simp only [Leaf.hueFromRgb, feq_fin, if_true, lit_def]
    rw [ed, ep, eq, fmod_lt (by norm_num) (by linarith) (by linarith), eh]
  have nh2 : |h - 60 * q| ≤ 7 / 100000 := by linarith
  have nh' := abs_le.mp nh2
  have nq2 : |q - (g - b) / δ| ≤ 1 / 10000 := by
    by_contra hh
    push Not at hh
    have : 1 / 10000 * 0.3 < |q - (g - b) / δ| * δ := mul_lt_mul hh wide (by norm_num) (abs_nonneg _)
    norm_num at *; linarith
  have nq' := abs_le.mp nq2
  have u0 : 60 * ((g - b) / δ) ≤ -0.2 := by
    rw [mul_div_assoc', div_le_iff₀ δp]; linarith
  have u1 : -0.9 ≤ 60 * ((g - b) / δ) := by
    rw [mul_div_assoc', le_div_iff₀ δp]; linarith
  have hneg : h < 0 := by norm_num at *; linarith
  have hlow : -0.95 ≤ h := by norm_num at *; linarith
  obtain ⟨h', eh', nh''⟩ := near_rnd (r := h + 360) (by rw [abs_of_pos (by norm_num at *; linarith)]; linarith)
  rw [abs_of_pos (a := h + 360) (by norm_num at *; linarith)] at nh''
  have nh4 := abs_le.mp nh''
  have hge : 359 ≤ h' := by norm_num at *; linarith
  rw [hcode]
  unfold Color.hueReduce
  simp only [lit_def, zero_def]
  rw [fmod_lt (by norm_num) (by norm_num at *; linarith) (by norm_num at *; linarith)]
  simp only [fin_lt, if_pos hneg]
  rw [fin_add, eh', Color.clamp_fin, min_eq_right hge, max_eq_left (by norm_num)]

/-- Slightly bluish reds: the hue is stored as 359 degrees and the red and blue are shared out anew. -/
theorem hsi_gap {c : Color} {r g b : ℝ} (h : IsRgb c r g b) (wide : 0.3 ≤ r - g) (low : 0.2 * (r - g) ≤ 60 * (b - g)) (high : 60 * (b - g) ≤ 0.9 * (r - g)) :
    ∃ d r' g' b', Leaf.rgb_deep_to_hsi c = ok d ∧ Leaf.hsi_to_rgb_deep d = ok { c with comps := [fin r', fin g', fin b'] } ∧
      |r' - (r + b - 2 * g) * 60 / 61| ≤ 2.01e-5 ∧ |g' - 0| ≤ 2.01e-5 ∧ |b' - (r + b - 2 * g) / 61| ≤ 2.01e-5 := by
  obtain ⟨-, -, p1, p2, p3, p4, p5, p6⟩ := id h
  have hgb : g < b := by norm_num at *; linarith
  have hbr : b < r := by norm_num at *; linarith
  have hmx : max (max r g) b = r := by rw [max_eq_left (hgb.trans hbr).le, max_eq_left hbr.le]
  have hmn : min (min r g) b = g := by rw [min_eq_right (hgb.trans hbr).le, min_eq_left hgb.le]
  obtain ⟨w1, w2, w3, w4⟩ := weights_359
  obtain ⟨d, r', g', b', e1, e2, m1, m2, m3⟩ := hsi_out (S := r + b - 2 * g) (η := 0) (a1 := (r + b - 2 * g) * 60 / 61) (a2 := 0) (a3 := (r + b - 2 * g) / 61) h hmx hmn
    (by norm_num at *; linarith) (by ring) (by linarith) (hue_wide p3 p2 wide low high) (by norm_num) le_rfl
    (by rw [w1, w4, show (r + b - 2 * g) * (1 / (61 / 60)) - (r + b - 2 * g) * 60 / 61 = 0 by ring, abs_zero])
    (by rw [w2, zero_div, mul_zero, sub_zero, abs_zero])
    (by rw [w3, w4, show (r + b - 2 * g) * (1 / 60 / (61 / 60)) - (r + b - 2 * g) / 61 = 0 by ring, abs_zero])
    ⟨by linarith, by norm_num at *; linarith⟩ ⟨le_rfl, by norm_num⟩ ⟨by linarith, by linarith⟩
  refine ⟨d, r', g', b', e1, e2, ?_, ?_, ?_⟩ <;> (norm_num at *; linarith)

/-- All other colours that are not nearly grey: every channel loses the smallest one. -/
theorem hsi_near {c : Color} {r g b mn : ℝ} (h : IsRgb c r g b) (hmn : min (min r g) b = mn) (wide : 1 / 300 ≤ max (max r g) b - mn)
    (hgap : HueGap r g b → 1 / 300 ≤ b - g ∧ r - g ≤ 60 * (b - g) + 21 / 255) :
    ∃ d r' g' b', Leaf.rgb_deep_to_hsi c = ok d ∧ Leaf.hsi_to_rgb_deep d = ok { c with comps := [fin r', fin g', fin b'] } ∧
      |r' - (r - mn)| ≤ 1.9e-3 ∧ |g' - (g - mn)| ≤ 1.9e-3 ∧ |b' - (b - mn)| ≤ 1.9e-3 := by
  obtain ⟨-, -, p1, p2, p3, p4, p5, p6⟩ := id h
  generalize hmx : max (max r g) b = mx at *
  have hr1 : mn ≤ r := by rw [← hmn]; exact (min_le_left _ _).trans (min_le_left _ _)
  have hg1 : mn ≤ g := by rw [← hmn]; exact (min_le_left _ _).trans (min_le_right _ _)
  have hb1 : mn ≤ b := by rw [← hmn]; exact min_le_right _ _
  have hr2 : r ≤ mx := by rw [← hmx]; exact (le_max_left _ _).trans (le_max_left _ _)
  have hg2 : g ≤ mx := by rw [← hmx]; exact (le_max_right _ _).trans (le_max_left _ _)
  have hb2 : b ≤ mx := by rw [← hmx]; exact le_max_right _ _
  have hmn0 : 0 ≤ mn := by rw [← hmn]; exact le_min (le_min p1 p3) p5
  have hmx1 : mx ≤ 1 := by rw [← hmx]; exact max_le (max_le p2 p4) p6
  have top : mx = r ∨ mx = g ∨ mx = b := by
    rw [← hmx]
    rcases max_choice (max r g) b with e | e
    · rcases max_choice r g with e' | e'
      · exact .inl (e.trans e')
      · exact .inr (.inl (e.trans e'))
    · exact .inr (.inr e)
  have bot : mn = r ∨ mn = g ∨ mn = b := by
    rw [← hmn]
    rcases min_choice (min r g) b with e | e
    · rcases min_choice r g with e' | e'
      · exact .inl (e.trans e')
      · exact .inr (.inl (e.trans e'))
    · exact .inr (.inr e)
  have far : mn + 1 / 1000 ≤ (r + g + b) / 3 := by rcases top with e | e | e <;> linarith
  have S2 : r + g + b - 3 * mn ≤ 2 * (mx - mn) := by rcases bot with e | e | e <;> linarith
  have S0 : 0 ≤ r + g + b - 3 * mn := by linarith
  obtain ⟨H, x, k, u, b2, eH, H0, H1, u0, u1, hst, hn, er, eg, eb, hb⟩ := hue_near hmx hmn hmn0 hmx1 (by linarith)
  obtain ⟨q1, q2, q3⟩ := hweights_near u0 u1 hst H0
  have pat : (0 ≤ k.red u ∧ k.red u ≤ 1) ∧ (0 ≤ k.green u ∧ k.green u ≤ 1) ∧ (0 ≤ k.blue u ∧ k.blue u ≤ 1) ∧ k.red u + k.green u + k.blue u = 1 + u := by
    cases k <;> simp only [Sector.red, Sector.green, Sector.blue] <;> refine ⟨⟨?_, ?_⟩, ⟨?_, ?_⟩, ⟨?_, ?_⟩, ?_⟩ <;> linarith
  obtain ⟨t1, t2, t3, t4⟩ := pat
  have hws : |ws H - (1 + u)| ≤ 3 * (|H - x| / 30) := by
    rw [← t4]; unfold ws
    rw [abs_le] at q1 q2 q3 ⊢; constructor <;> linarith
  have hH : 1 ≤ ws H := by
    have := ws_ge (t := H / 60) (by positivity) (by linarith)
    rwa [show 60 * (H / 60) = H by ring] at this
  have sh : ∀ w w' : ℝ, 0 ≤ w' → w' ≤ 1 → |w - w'| ≤ |H - x| / 30 → |(r + g + b - 3 * mn) * (w / ws H) - (r + g + b - 3 * mn) * (w' / (1 + u))| ≤ 3.4e-4 := by
    intro w w' w0 w1 hw
    have := share_lip hH (by linarith : 1 ≤ 1 + u) w0 w1 hw hws
    rw [← mul_sub, abs_mul, abs_of_nonneg S0]
    have := mul_le_mul S2 this (abs_nonneg _) (by linarith)
    calc _ ≤ _ := this
      _ = 8 / 30 * (|H - x| * (mx - mn)) := by ring
      _ ≤ 8 / 30 * (1 / 800) := by gcongr
      _ ≤ _ := by norm_num
  have hsum : r + g + b2 - 3 * mn = (mx - mn) * (1 + u) := by
    rw [← t4, eb]; nth_rewrite 1 [er]; nth_rewrite 1 [eg]; ring
  have up : 0 < 1 + u := by linarith
  suffices hs : ∃ η, η ≤ 1.85e-3 ∧ |(r + g + b - 3 * mn) * (wr H / ws H) - (r - mn)| ≤ η ∧ |(r + g + b - 3 * mn) * (wg H / ws H) - (g - mn)| ≤ η ∧
      |(r + g + b - 3 * mn) * (wb H / ws H) - (b - mn)| ≤ η by
    obtain ⟨η, hη, s1, s2, s3⟩ := hs
    obtain ⟨d, r', g', b', e1, e2, m1, m2, m3⟩ := hsi_out h hmx hmn far rfl (by linarith) eH H0 H1 s1 s2 s3
      ⟨by linarith, by linarith⟩ ⟨by linarith, by linarith⟩ ⟨by linarith, by linarith⟩
    refine ⟨d, r', g', b', e1, e2, ?_, ?_, ?_⟩ <;> (norm_num at *; linarith)
  have s1 := sh _ _ t1.1 t1.2 q1
  have s2 := sh _ _ t2.1 t2.2 q2
  have s3 := sh _ _ t3.1 t3.2 q3
  rcases hb with ⟨rfl, -⟩ | ⟨rfl, hg⟩
  · have key : ∀ w, (r + g + b2 - 3 * mn) * (w / (1 + u)) = (mx - mn) * w := fun w => by rw [hsum]; field_simp
    rw [key] at s1 s2 s3
    refine ⟨3.4e-4, by norm_num, ?_, ?_, ?_⟩
    · rwa [show r - mn = (mx - mn) * k.red u by linarith]
    · rwa [show g - mn = (mx - mn) * k.green u by linarith]
    · rwa [show b2 - mn = (mx - mn) * k.blue u by linarith]
  · obtain ⟨h1, h2⟩ := hgap hg
    have hg' := id hg
    obtain ⟨g1, g2⟩ := hg
    rw [gapBlue, if_pos hg'] at eb hsum
    have gr : g ≤ r := by linarith
    have br : b ≤ r := by linarith
    have hmn' : g = mn := by rw [← hmn, min_eq_right gr, min_eq_left g1.le]
    have hmx' : r = mx := by rw [← hmx, max_eq_left gr, max_eq_left br]
    subst hmn' hmx'
    have δp : 0 < r - g := by linarith
    have u' : 1 + u = 61 / 60 := by
      have : (r - g) * (1 + u) = (r - g) * (61 / 60) := by rw [← hsum]; ring
      exact mul_left_cancel₀ δp.ne' this
    have k1 : k.red u = 1 := mul_left_cancel₀ δp.ne' (by linarith)
    have k2 : k.green u = 0 := mul_left_cancel₀ δp.ne' (by linarith)
    have k3 : k.blue u = 1 / 60 := mul_left_cancel₀ δp.ne' (by linarith)
    rw [k1, u'] at s1
    rw [k2, u'] at s2
    rw [k3, u'] at s3
    refine ⟨1.85e-3, le_rfl, ?_, ?_, ?_⟩
    · rw [abs_le] at s1 ⊢; constructor <;> (norm_num at *; linarith)
    · rw [abs_le] at s2 ⊢; constructor <;> (norm_num at *; linarith)
    · rw [abs_le] at s3 ⊢; constructor <;> (norm_num at *; linarith)

omit [FineError] in
theorem byte_clamp {n : ℕ} (h : n ≤ 255) : Color.clamp (fin n) 255 0 = fin n := by
  have : (n : ℝ) ≤ 255 := by exact_mod_cast h
  simp [Color.clamp_fin, this]

omit [FineError] in
/-- Greys come back from HSI in every arithmetic. -/
theorem grey_back {c : Color} {v : ℝ} (h : IsRgb c v v v) : ∃ d, Leaf.rgb_deep_to_hsi c = ok d ∧ Leaf.hsi_to_rgb_deep d = ok { c with comps := [fin v, fin v, fin v] } := by
  obtain ⟨-, -, v0, v1, -⟩ := id h
  rw [← obj_rgb h, rgb_eq h]
  generalize c.malpha = al
  generalize c.space = sp
  simp only [Leaf.rgb_deep_to_hsi, obj_0, obj_1, obj_2, obj_space, obj_malpha, obj_alpha _ _ _ _ _ _ (rfl : Color.scalesAlpha .rgbDeep = false), ok_bind, fmin_fin, fmax_fin, feq_fin, Color.construct_hsi,
    max_self, min_self, if_true]
  refine ⟨_, rfl, ?_⟩
  rw [mkHue_grey _ _ _ ⟨rfl, rfl⟩ v0 v1]
  simp only [Leaf.hsi_to_rgb_deep, obj_0, obj_1, obj_2, obj_space, obj_alpha _ _ _ _ _ _ (rfl : Color.scalesAlpha .hsi = false), ok_bind,
    zero_def, feq_fin, if_true, Color.constructGrey, Color.construct_rgbDeep, mkRgb_obj _ _ v0 v1 v0 v1 v0 v1]

end

section
variable [FloatModel] [IntExact] [FineError]

/-- Back to an 8-bit colour with other channels. -/
theorem bytes_return {R G B A R' G' B' : ℕ} (hR : R' ≤ 255) (hG : G' ≤ 255) (hB : B' ≤ 255) (hA : A ≤ 255) {sp : Option Nat} {c d c' : Color}
    (hc : Color.construct .rgbTrue [fin R, fin G, fin B] (fin A) sp = ok c) (hd : Leaf.rgb_true_to_rgb_deep c = ok d)
    (hc' : Color.construct .rgbTrue [fin R', fin G', fin B'] (fin A) sp = ok c') {x y z : ℝ}
    (hx : Fl.round (fin x * 255) = fin R') (hy : Fl.round (fin y * 255) = fin G') (hz : Fl.round (fin z * 255) = fin B') :
    Leaf.rgb_deep_to_rgb_true { d with comps := [fin x, fin y, fin z] } = ok c' := by
  obtain ⟨-, d', -, -, -, hd', -⟩ := byte_deep R' G' B' A hR hG hB hA sp c' hc'
  rw [← byte_return R' G' B' A hR hG hB hA sp c' d' hc' hd' x y z hx hy hz]
  congr 1
  rw [Color.construct_rgbTrue, ok_inj] at hc hc'
  subst hc hc'
  simp only [Leaf.rgb_true_to_rgb_deep, Color.mkRgbTrue, Conv.get3_0, Conv.get3_1, Conv.get3_2, ok_bind, Color.construct_rgbDeep, Color.mkRgbDeep, ok_inj] at hd hd'
  subst hd hd'
  rfl

end

end HsiFine

open HsiFine

/-- How many steps the blue of a slightly bluish red gains: its hue is stored as 359 degrees. -/
def ConvSpec.hsiLift (R G B : ℕ) : ℕ := if G < B then (R - (G + 60 * (B - G)) + 30) / 61 else 0

section
variable [FloatModel] [IntExact] [FineError]

/-- **C182** What comes back when an 8-bit colour that is not grey goes through HSI, in every arithmetic with the precision of `float`: every channel has lost the smallest one, and in slightly bluish
reds a few steps have moved from red to blue. -/
theorem C182_bytes (w : World) (R G B A : ℕ) (hR : R ≤ 255) (hG : G ≤ 255) (hB : B ≤ 255) (hA : A ≤ 255) (sp : Option Nat) (c : Color)
    (hc : Color.construct .rgbTrue [fin R, fin G, fin B] (fin A) sp = ok c) (hne : ¬ (R = G ∧ G = B)) (m e : ℕ) (hm : min (min R G) B = m) (he : hsiLift R G B = e) (c' : Color)
    (hc' : Color.construct .rgbTrue [fin (R - m - e : ℕ), fin (G - m : ℕ), fin (B - m + e : ℕ)] (fin A) sp = ok c') : Trip w c .hsi .rgbTrue c' := by
  obtain ⟨hcol, d, r, g, b, h1, hd, ⟨er, eg, eb⟩, -, -⟩ := byte_deep R G B A hR hG hB hA sp c hc
  have nr := byte_fine hR er
  have ng := byte_fine hG eg
  have nb := byte_fine hB eb
  have mR : m ≤ R := by omega
  have mG : m ≤ G := by omega
  have mB : m ≤ B := by omega
  -- whatever is close enough to the right steps will do
  have fin' : ∀ d' x y z, Leaf.rgb_deep_to_hsi d = ok d' → Leaf.hsi_to_rgb_deep d' = ok { d with comps := [fin x, fin y, fin z] } → B - m + e ≤ 255 →
      |x - (R - m - e : ℕ) / 255| ≤ 1.955e-3 → |y - (G - m : ℕ) / 255| ≤ 1.955e-3 → |z - (B - m + e : ℕ) / 255| ≤ 1.955e-3 → Trip w c .hsi .rgbTrue c' := by
    intro d' x y z e1 e2 h255 n1 n2 n3
    refine trip_of (s := .rgbTrue) (d := d') (by decide) (by decide) (by decide) hcol ?_ ?_
    · show (Leaf.rgb_true_to_rgb_deep c >>= Leaf.rgb_deep_to_hsi) = ok d'
      rw [h1, ok_bind, e1]
    · show (Leaf.hsi_to_rgb_deep d' >>= Leaf.rgb_deep_to_rgb_true) = ok c'
      rw [e2, ok_bind]
      exact bytes_return (by omega) (by omega) h255 hA hc h1 hc' (back_fine (by omega) n1) (back_fine (by omega) n2) (back_fine h255 n3)
  by_cases hgap : G < B ∧ G + 60 * (B - G) + 21 ≤ R
  · obtain ⟨hGB, lo⟩ := hgap
    obtain ⟨k, rfl⟩ := Nat.exists_eq_add_of_lt hGB
    have ek : G + k + 1 - G = k + 1 := by omega
    rw [ek] at lo
    obtain ⟨E, rfl⟩ := Nat.exists_eq_add_of_le (by omega : G + 60 * (k + 1) ≤ R)
    have hmG : m = G := by omega
    subst hmG
    have hE : e = (E + 30) / 61 := by
      rw [← he, hsiLift, if_pos (by omega), ek]
      congr 1; omega
    have k2 : k + 1 ≤ 3 := by omega
    have E1 : 21 ≤ E := by omega
    have E2 : E + 60 * k ≤ 195 := by omega
    have lo1 : 61 * e ≤ E + 30 := by omega
    have hi1 : E + 30 < 61 * e + 61 := by omega
    have hi2 : E ≤ 61 * e + 30 := by omega
    have c1 : ((m + 60 * (k + 1) + E - m - e : ℕ) : ℝ) = 60 * (k + 1) + E - e := by
      have : m + 60 * (k + 1) + E - m - e + e = 60 * (k + 1) + E := by omega
      have : ((m + 60 * (k + 1) + E - m - e : ℕ) : ℝ) + e = 60 * (k + 1) + E := by exact_mod_cast this
      linarith
    have c2 : ((m + k + 1 - m + e : ℕ) : ℝ) = k + 1 + e := by rw [ek]; push_cast; ring
    have k0 : (0 : ℝ) ≤ k := Nat.cast_nonneg k
    have E1' : (21 : ℝ) ≤ E := by exact_mod_cast E1
    have E2' : (E : ℝ) + 60 * k ≤ 195 := by exact_mod_cast E2
    have lo1' : 61 * (e : ℝ) ≤ E + 30 := by exact_mod_cast lo1
    have hi1' : (E : ℝ) ≤ 61 * e + 30 := by exact_mod_cast hi2
    have m0 : (0 : ℝ) ≤ m := Nat.cast_nonneg m
    push_cast at nr nb
    obtain ⟨w1, w2, w3⟩ := gap_steps nr ng nb k0 E1' E2' (by exact_mod_cast (by omega : k ≤ 2))
    obtain ⟨d', x, y, z, e1, e2, n1, n2, n3⟩ := hsi_gap hd w1 w2 w3
    obtain ⟨b1, b3⟩ := gap_back nr ng nb lo1' hi1' n1 n3
    refine fin' d' x y z e1 e2 (by omega) (by rw [c1]; exact b1) ?_ (by rw [c2]; exact b3)
    rw [Nat.sub_self, Nat.cast_zero, zero_div]
    exact n2.trans (by norm_num)
  · have he0 : e = 0 := by
      rw [← he, hsiLift]
      split
      · rw [Nat.div_eq_of_lt (by omega)]
      · rfl
    subst he0
    rw [Nat.sub_zero, Nat.add_zero] at *
    generalize hmn : min (min r g) b = mn
    have rmn : mn ≤ r := by rw [← hmn]; exact (min_le_left _ _).trans (min_le_left _ _)
    have gmn : mn ≤ g := by rw [← hmn]; exact (min_le_left _ _).trans (min_le_right _ _)
    have bmn : mn ≤ b := by rw [← hmn]; exact min_le_right _ _
    have mR' : (m : ℝ) ≤ R := by exact_mod_cast mR
    have mG' : (m : ℝ) ≤ G := by exact_mod_cast mG
    have mB' : (m : ℝ) ≤ B := by exact_mod_cast mB
    have nm : |mn - m / 255| ≤ 1.3e-7 := by
      have h0 : (m : ℝ) / 255 - 1.3e-7 ≤ mn := by
        rw [← hmn]
        exact le_min (le_min (low_step nr mR') (low_step ng mG')) (low_step nb mB')
      have : m = R ∨ m = G ∨ m = B := by omega
      rw [abs_le] at nr ng nb ⊢
      refine ⟨by linarith, ?_⟩
      rcases this with h | h | h <;> rw [h] <;> linarith
    have wide : 1 / 300 ≤ max (max r g) b - mn := by
      have : m + 1 ≤ R ∨ m + 1 ≤ G ∨ m + 1 ≤ B := by omega
      rcases this with h | h | h
      · exact high_step nr nm (by exact_mod_cast h) ((le_max_left _ _).trans (le_max_left _ _))
      · exact high_step ng nm (by exact_mod_cast h) ((le_max_right _ _).trans (le_max_left _ _))
      · exact high_step nb nm (by exact_mod_cast h) (le_max_right _ _)
    have hg : HueGap r g b → 1 / 300 ≤ b - g ∧ r - g ≤ 60 * (b - g) + 21 / 255 := by
      intro hh
      have hGB : G < B := by
        by_contra hcon
        exact absurd hh.1 (not_lt.mpr (byte_mono (not_lt.mp hcon) eb eg))
      have hle : R + 60 * G ≤ G + 60 * B + 20 := by omega
      exact small_gap nr ng nb (by exact_mod_cast hle) (by exact_mod_cast hGB)
    obtain ⟨d', x, y, z, e1, e2, n1, n2, n3⟩ := hsi_near hd hmn wide hg
    have close : ∀ (x v : ℝ) (N : ℕ), m ≤ N → |x - (v - mn)| ≤ 1.9e-3 → |v - N / 255| ≤ 1.3e-7 → |x - (N - m : ℕ) / 255| ≤ 1.955e-3 := by
      intro x v N hN h h'
      rw [Nat.cast_sub hN]
      exact near_step h h' nm
    exact fin' d' x y z e1 e2 (by omega) (close _ _ _ mR n1 nr) (close _ _ _ mG n2 ng) (close _ _ _ mB n3 nb)

/-- **C182** Greys survive the trip through HSI in single precision. -/
theorem C182_grey (w : World) (V A : ℕ) (hV : V ≤ 255) (hA : A ≤ 255) (sp : Option Nat) (c : Color)
    (hc : Color.construct .rgbTrue [fin V, fin V, fin V] (fin A) sp = ok c) : Trip w c .hsi .rgbTrue c := by
  obtain ⟨hcol, d, r, g, b, h1, hd, ⟨er, eg, eb⟩, ⟨n1, n2, n3⟩, hback⟩ := byte_deep V V V A hV hV hV hA sp c hc
  have hgr : g = r := by rw [← fin_inj, eg, er]
  have hbr : b = r := by rw [← fin_inj, eb, er]
  subst hgr hbr
  obtain ⟨d', e1, e2⟩ := grey_back hd
  refine trip_of (s := .rgbTrue) (d := d') (by decide) (by decide) (by decide) hcol ?_ ?_
  · show (Leaf.rgb_true_to_rgb_deep c >>= Leaf.rgb_deep_to_hsi) = ok d'
    rw [h1, ok_bind, e1]
  · show (Leaf.hsi_to_rgb_deep d' >>= Leaf.rgb_deep_to_rgb_true) = ok c
    rw [e2, ok_bind]
    exact hback _ _ _ (n1.trans (by norm_num)) (n1.trans (by norm_num)) (n1.trans (by norm_num))

/-- **C182** An 8-bit colour survives the trip through HSI in single precision exactly if it is grey, or has a channel 0 and is not one of the slightly bluish reds. -/
theorem C182_survives (w : World) (R G B A : ℕ) (hR : R ≤ 255) (hG : G ≤ 255) (hB : B ≤ 255) (hA : A ≤ 255) (sp : Option Nat) (c : Color)
    (hc : Color.construct .rgbTrue [fin R, fin G, fin B] (fin A) sp = ok c) :
    Trip w c .hsi .rgbTrue c ↔ (R = G ∧ G = B) ∨ ((R = 0 ∨ G = 0 ∨ B = 0) ∧ (G < B → R ≤ G + 60 * (B - G) + 30)) := by
  by_cases hgr : R = G ∧ G = B
  · obtain ⟨rfl, rfl⟩ := hgr
    exact ⟨fun _ => .inl ⟨rfl, rfl⟩, fun _ => C182_grey w R A hR hA sp c hc⟩
  have hlift : hsiLift R G B = 0 ↔ (G < B → R ≤ G + 60 * (B - G) + 30) := by
    unfold hsiLift
    split
    · rename_i h
      rw [Nat.div_eq_zero_iff]
      constructor
      · intro hh _; omega
      · intro hh; have := hh h; omega
    · rename_i h
      exact ⟨fun _ hh => absurd hh h, fun _ => rfl⟩
  have hT := C182_bytes w R G B A hR hG hB hA sp c hc hgr _ _ rfl rfl _ (Color.construct_rgbTrue _ _ _ _ _)
  have hlt : hsiLift R G B ≤ 0 ∨ R = G + 60 * (B - G) + (R - (G + 60 * (B - G))) ∧ G < B ∧ hsiLift R G B = (R - (G + 60 * (B - G)) + 30) / 61 := by
    by_cases h : G < B ∧ G + 60 * (B - G) ≤ R
    · exact .inr ⟨by omega, h.1, by rw [hsiLift, if_pos h.1]⟩
    · left
      unfold hsiLift
      split
      · rw [Nat.div_eq_of_lt (by omega)]
      · exact le_rfl
  generalize hm : min (min R G) B = m at hT
  generalize hsiLift R G B = e at hT hlift hlt
  have b1 : R - m - e ≤ 255 := by omega
  have b2 : G - m ≤ 255 := by omega
  have b3 : B - m + e ≤ 255 := by omega
  rw [← hlift]
  constructor
  · intro hT'
    have e1 := hT.unique hT'
    rw [Color.construct_rgbTrue, ok_inj] at hc
    rw [← hc] at e1
    simp only [Color.mkRgbTrue, byte_clamp b1, byte_clamp b2, byte_clamp b3, byte_clamp hR, byte_clamp hG, byte_clamp hB, Color.mk.injEq, List.cons.injEq, fin_inj, Nat.cast_inj, true_and, and_true] at e1
    omega
  · rintro (h | ⟨h0, he⟩)
    · exact absurd h hgr
    · have hm0 : m = 0 := by omega
      subst hm0 he
      simp only [Nat.sub_zero, Nat.add_zero] at hT
      rw [Color.construct_rgbTrue, ok_inj] at hc
      rwa [hc] at hT

/-- **C182** One trip through HSI is enough: whatever comes back from HSI survives every further trip, in single precision. -/
theorem C182_twice (w : World) (R G B A : ℕ) (hR : R ≤ 255) (hG : G ≤ 255) (hB : B ≤ 255) (hA : A ≤ 255) (sp : Option Nat) (c : Color)
    (hc : Color.construct .rgbTrue [fin R, fin G, fin B] (fin A) sp = ok c) (c' : Color) (ht : Trip w c .hsi .rgbTrue c') : Trip w c' .hsi .rgbTrue c' := by
  by_cases hgr : R = G ∧ G = B
  · obtain ⟨rfl, rfl⟩ := hgr
    obtain rfl := ht.unique (C182_grey w R A hR hA sp c hc)
    exact ht
  have hT := C182_bytes w R G B A hR hG hB hA sp c hc hgr _ _ rfl rfl _ (Color.construct_rgbTrue _ _ _ _ _)
  have hlt : hsiLift R G B = 0 ∧ (G < B → R ≤ G + 60 * (B - G) + 30) ∨ G < B ∧ G + 60 * (B - G) ≤ R ∧ hsiLift R G B = (R - (G + 60 * (B - G)) + 30) / 61 := by
    by_cases h : G < B ∧ G + 60 * (B - G) ≤ R
    · exact .inr ⟨h.1, h.2, by rw [hsiLift, if_pos h.1]⟩
    · left
      refine ⟨?_, by omega⟩
      unfold hsiLift
      split
      · rw [Nat.div_eq_of_lt (by omega)]
      · rfl
  generalize hm : min (min R G) B = m at hT
  generalize hsiLift R G B = e at hT hlt
  obtain rfl := ht.unique hT
  refine (C182_survives w (R - m - e) (G - m) (B - m + e) A (by omega) (by omega) (by omega) hA sp _ (Color.construct_rgbTrue _ _ _ _ _)).mpr (.inr ⟨?_, ?_⟩)
  · omega
  · omega

end

/-- Cases: `(200, 100, 0)` comes back, `(200, 100, 50)` comes back as `(150, 50, 0)`. -/
example (w : World) : letI := Binary32.binary32
    Trip w (Color.mkRgbTrue (fin (200 : ℕ)) (fin (100 : ℕ)) (fin (0 : ℕ)) (fin (255 : ℕ)) none) .hsi .rgbTrue
      (Color.mkRgbTrue (fin (200 : ℕ)) (fin (100 : ℕ)) (fin (0 : ℕ)) (fin (255 : ℕ)) none) :=
  letI := Binary32.binary32
  letI := Binary32.binary32_int
  letI := Binary32.binary32_fine
  (C182_survives w 200 100 0 255 (by norm_num) (by norm_num) (by norm_num) (by norm_num) none _ (Color.construct_rgbTrue _ _ _ _ _)).mpr (by norm_num)
example (w : World) : letI := Binary32.binary32
    Trip w (Color.mkRgbTrue (fin (200 : ℕ)) (fin (100 : ℕ)) (fin (50 : ℕ)) (fin (255 : ℕ)) none) .hsi .rgbTrue
      (Color.mkRgbTrue (fin (150 : ℕ)) (fin (50 : ℕ)) (fin (0 : ℕ)) (fin (255 : ℕ)) none) :=
  letI := Binary32.binary32
  letI := Binary32.binary32_int
  letI := Binary32.binary32_fine
  C182_bytes w 200 100 50 255 (by norm_num) (by norm_num) (by norm_num) (by norm_num) none _ (Color.construct_rgbTrue _ _ _ _ _) (by norm_num) 50 0 (by norm_num) (by norm_num [hsiLift]) _
    (Color.construct_rgbTrue _ _ _ _ _)
/-- A saturated red with a little blue loses three steps of red to blue. -/
example (w : World) : letI := Binary32.binary32
    Trip w (Color.mkRgbTrue (fin (255 : ℕ)) (fin (0 : ℕ)) (fin (1 : ℕ)) (fin (255 : ℕ)) none) .hsi .rgbTrue
      (Color.mkRgbTrue (fin (252 : ℕ)) (fin (0 : ℕ)) (fin (4 : ℕ)) (fin (255 : ℕ)) none) :=
  letI := Binary32.binary32
  letI := Binary32.binary32_int
  letI := Binary32.binary32_fine
  C182_bytes w 255 0 1 255 (by norm_num) (by norm_num) (by norm_num) (by norm_num) none _ (Color.construct_rgbTrue _ _ _ _ _) (by norm_num) 0 3 (by norm_num) (by norm_num [hsiLift]) _
    (Color.construct_rgbTrue _ _ _ _ _)
/-- … and what came back stays from then on. -/
example (w : World) : letI := Binary32.binary32
    Trip w (Color.mkRgbTrue (fin (252 : ℕ)) (fin (0 : ℕ)) (fin (4 : ℕ)) (fin (255 : ℕ)) none) .hsi .rgbTrue
      (Color.mkRgbTrue (fin (252 : ℕ)) (fin (0 : ℕ)) (fin (4 : ℕ)) (fin (255 : ℕ)) none) :=
  letI := Binary32.binary32
  letI := Binary32.binary32_int
  letI := Binary32.binary32_fine
  C182_twice w 255 0 1 255 (by norm_num) (by norm_num) (by norm_num) (by norm_num) none _ (Color.construct_rgbTrue _ _ _ _ _) _
    (C182_bytes w 255 0 1 255 (by norm_num) (by norm_num) (by norm_num) (by norm_num) none _ (Color.construct_rgbTrue _ _ _ _ _) (by norm_num) 0 3 (by norm_num) (by norm_num [hsiLift]) _
      (Color.construct_rgbTrue _ _ _ _ _))
