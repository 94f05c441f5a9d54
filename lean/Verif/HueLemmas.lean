import Verif.ConvLemmas

/-! Helper lemmas about the hue circle, in exact arithmetic. -/

open Outcome Fl

namespace Hue

/-- The six sectors of the hue circle. -/
inductive Sector
  | A | B | C | D | E | F
  deriving DecidableEq

/-- Red channel of a fully saturated colour; `u` is the middle channel. -/
def Sector.red : Sector → ℝ → ℝ
  | A, _ => 1
  | B, u => u
  | C, _ => 0
  | D, _ => 0
  | E, u => u
  | F, _ => 1

/-- Green channel. -/
def Sector.green : Sector → ℝ → ℝ
  | A, u => u
  | B, _ => 1
  | C, _ => 1
  | D, u => u
  | E, _ => 0
  | F, _ => 0

/-- Blue channel. -/
def Sector.blue : Sector → ℝ → ℝ
  | A, _ => 0
  | B, _ => 0
  | C, u => u
  | D, _ => 1
  | E, _ => 1
  | F, u => u

/-- Hue in degrees. -/
def Sector.hue : Sector → ℝ → ℝ
  | A, u => 60 * u
  | B, u => 60 * (2 - u)
  | C, u => 60 * (2 + u)
  | D, u => 60 * (4 - u)
  | E, u => 60 * (4 + u)
  | F, u => 60 * (6 - u)

/-- The position of a colour that is not grey on the hue circle. -/
structure Pos (r g b mn δ : ℝ) (k : Sector) (u : ℝ) : Prop where
  δ0 : 0 < δ
  u0 : 0 ≤ u
  u1 : u ≤ 1
  f : k = .F → 0 < u
  maxEq : max (max r g) b = mn + δ
  minEq : min (min r g) b = mn
  red : r = mn + δ * k.red u
  green : g = mn + δ * k.green u
  blue : b = mn + δ * k.blue u

theorem Pos.hue_range {r g b mn δ : ℝ} {k : Sector} {u : ℝ} (h : Pos r g b mn δ k u) : 0 ≤ k.hue u ∧ k.hue u < 360 := by
  have := h.u0; have := h.u1
  cases k <;> simp only [Sector.hue] <;> try (constructor <;> linarith)
  have := h.f rfl
  constructor <;> linarith

theorem truncR_zero {x : ℝ} (h0 : -1 < x) (h1 : x < 1) : truncR x = 0 := by
  unfold truncR
  split
  · exact Int.floor_eq_zero_iff.mpr ⟨by assumption, h1⟩
  · exact Int.ceil_eq_zero_iff.mpr ⟨h0, by linarith⟩

theorem truncR_one {x : ℝ} (h0 : 1 ≤ x) (h1 : x < 2) : truncR x = 1 := by
  unfold truncR
  rw [if_pos (by linarith)]
  exact Int.floor_eq_iff.mpr ⟨by simpa using h0, by norm_num; exact h1⟩

theorem fmod_lt {x m : ℝ} (hm : 0 < m) (h0 : -m < x) (h1 : x < m) : fmod (fin x) (fin m) = fin x := by
  have h2 : -1 < x / m := by rw [lt_div_iff₀ hm]; linarith
  have h3 : x / m < 1 := by rw [div_lt_one hm]; exact h1
  simp [fmod, hm.ne', truncR_zero h2 h3]

theorem fmod_ge {x m : ℝ} (hm : 0 < m) (h0 : m ≤ x) (h1 : x < 2 * m) : fmod (fin x) (fin m) = fin (x - m) := by
  have h2 : 1 ≤ x / m := by rw [le_div_iff₀ hm]; linarith
  have h3 : x / m < 2 := by rw [div_lt_iff₀ hm]; linarith
  simp [fmod, hm.ne', truncR_one h2 h3]

variable [FloatModel] [ExactModel]

theorem hueReduce_neg {h : ℝ} (h0 : -360 < h) (h1 : h < 0) : Color.hueReduce (fin h) = fin (h + 360) := by
  unfold Color.hueReduce
  simp only [lit_def, zero_def]
  rw [fmod_lt (by norm_num) h0 (by linarith)]
  simp [h1]

/-- Position of every colour that is not grey, and the hue the code computes for it. -/
theorem exists_pos {r g b : ℝ} (hne : max (max r g) b ≠ min (min r g) b) : ∃ mn δ k u, Pos r g b mn δ k u ∧
    Color.hueReduce (Leaf.hueFromRgb (fin r) (fin g) (fin b) (fin (mn + δ)) (fin (mn + δ - mn))) = fin (k.hue u) := by
  set mn := min (min r g) b with hmn
  set mx := max (max r g) b with hmx
  have hr1 : mn ≤ r := (min_le_left _ _).trans (min_le_left _ _)
  have hg1 : mn ≤ g := (min_le_left _ _).trans (min_le_right _ _)
  have hb1 : mn ≤ b := min_le_right _ _
  have hr2 : r ≤ mx := (le_max_left _ _).trans (le_max_left _ _)
  have hg2 : g ≤ mx := (le_max_right _ _).trans (le_max_left _ _)
  have hb2 : b ≤ mx := le_max_right _ _
  have hδ : 0 < mx - mn := sub_pos.mpr (lt_of_le_of_ne (hr1.trans hr2) (Ne.symm hne))
  have key : ∀ (k : Sector) (u : ℝ), 0 ≤ u → u ≤ 1 → (k = .F → 0 < u) → r = mn + (mx - mn) * k.red u → g = mn + (mx - mn) * k.green u →
      b = mn + (mx - mn) * k.blue u → Leaf.hueFromRgb (fin r) (fin g) (fin b) (fin mx) (fin (mx - mn)) =
        fin (if k = .F then k.hue u - 360 else k.hue u) → ∃ mn' δ k u, Pos r g b mn' δ k u ∧
        Color.hueReduce (Leaf.hueFromRgb (fin r) (fin g) (fin b) (fin (mn' + δ)) (fin (mn' + δ - mn'))) = fin (k.hue u) := by
    intro k u u0 u1 hf e1 e2 e3 hh
    have hp : Pos r g b mn (mx - mn) k u := ⟨hδ, u0, u1, hf, by rw [← hmx]; ring, rfl, e1, e2, e3⟩
    refine ⟨mn, mx - mn, k, u, hp, ?_⟩
    have hrange := hp.hue_range
    rw [show mn + (mx - mn) = mx by ring, hh]
    by_cases hkF : k = .F
    · rw [if_pos hkF]
      subst hkF
      have := hf rfl
      simp only [Sector.hue] at hrange ⊢
      rw [hueReduce_neg (by linarith) (by linarith)]; congr 1; ring
    · rw [if_neg hkF, Color.hueReduce_id hrange.1 hrange.2]
  have hδ' := hδ.ne'
  by_cases c1 : mx = r
  · -- red is the largest channel
    by_cases c2 : b ≤ g
    · have hbmn : b = mn := le_antisymm (by rw [hmn]; exact le_min (le_min (by rw [← c1]; exact hb2) c2) le_rfl) hb1
      refine key .A ((g - b) / (mx - mn)) (div_nonneg (by linarith) hδ.le) (by rw [div_le_one hδ]; linarith) (by simp) ?_ ?_ ?_ ?_
      · simp only [Sector.red]; linarith
      · simp only [Sector.green]; field_simp; linarith
      · simp only [Sector.blue]; linarith
      · simp only [Leaf.hueFromRgb, feq_fin, c1, if_true, sub_exact, lit_def]
        rw [← c1, div_exact _ _ hδ', fmod_lt (by norm_num), mul_exact]
        · simp [Sector.hue]
        · rw [lt_div_iff₀ hδ]; linarith
        · rw [div_lt_iff₀ hδ]; linarith
    · push Not at c2
      have hgmn : g = mn := le_antisymm (by rw [hmn]; exact le_min (le_min (by rw [← c1]; exact hg2) le_rfl) c2.le) hg1
      refine key .F ((b - g) / (mx - mn)) (div_nonneg (by linarith) hδ.le) (by rw [div_le_one hδ]; linarith)
        (fun _ => div_pos (by linarith) hδ) ?_ ?_ ?_ ?_
      · simp only [Sector.red]; linarith
      · simp only [Sector.green]; linarith
      · simp only [Sector.blue]; field_simp; linarith
      · simp only [Leaf.hueFromRgb, feq_fin, c1, if_true, sub_exact, lit_def]
        rw [← c1, div_exact _ _ hδ', fmod_lt (by norm_num), mul_exact]
        · simp only [Sector.hue]; congr 1; field_simp; ring
        · rw [lt_div_iff₀ hδ]; linarith
        · rw [div_lt_iff₀ hδ]; linarith
  · by_cases c3 : mx = g
    · -- green
      have hlt : r < mx := lt_of_le_of_ne hr2 (Ne.symm c1)
      by_cases c2 : b ≤ r
      · have hbmn : b = mn := le_antisymm (by rw [hmn]; exact le_min (le_min c2 (by rw [← c3]; exact hb2)) le_rfl) hb1
        refine key .B ((r - b) / (mx - mn)) (div_nonneg (by linarith) hδ.le) (by rw [div_le_one hδ]; linarith) (by simp) ?_ ?_ ?_ ?_
        · simp only [Sector.red]; field_simp; linarith
        · simp only [Sector.green]; linarith
        · simp only [Sector.blue]; linarith
        · simp only [Leaf.hueFromRgb, feq_fin, c1, if_false, sub_exact, lit_def]
          rw [if_pos c3, div_exact _ _ hδ']
          simp only [add_exact, mul_exact, Sector.hue, reduceCtorEq, if_false]
          congr 1; field_simp; ring
      · push Not at c2
        have hrmn : r = mn := le_antisymm (by rw [hmn]; exact le_min (le_min le_rfl (by rw [← c3]; exact hr2)) c2.le) hr1
        refine key .C ((b - r) / (mx - mn)) (div_nonneg (by linarith) hδ.le) (by rw [div_le_one hδ]; linarith) (by simp) ?_ ?_ ?_ ?_
        · simp only [Sector.red]; linarith
        · simp only [Sector.green]; linarith
        · simp only [Sector.blue]; field_simp; linarith
        · simp only [Leaf.hueFromRgb, feq_fin, c1, if_false, sub_exact, lit_def]
          rw [if_pos c3, div_exact _ _ hδ']
          simp only [add_exact, mul_exact, Sector.hue, reduceCtorEq, if_false]
          congr 1; field_simp; ring
    · -- blue
      have c4 : mx = b := by
        rcases max_choice (max r g) b with h | h
        · rcases max_choice r g with h' | h'
          · exact absurd (by rw [hmx, h, h']) c1
          · exact absurd (by rw [hmx, h, h']) c3
        · rw [hmx, h]
      have hlt : r < mx := lt_of_le_of_ne hr2 (Ne.symm c1)
      have hlt2 : g < mx := lt_of_le_of_ne hg2 (Ne.symm c3)
      by_cases c2 : r ≤ g
      · have hrmn : r = mn := le_antisymm (by rw [hmn]; exact le_min (le_min le_rfl c2) (by rw [← c4]; exact hr2)) hr1
        refine key .D ((g - r) / (mx - mn)) (div_nonneg (by linarith) hδ.le) (by rw [div_le_one hδ]; linarith) (by simp) ?_ ?_ ?_ ?_
        · simp only [Sector.red]; linarith
        · simp only [Sector.green]; field_simp; linarith
        · simp only [Sector.blue]; linarith
        · simp only [Leaf.hueFromRgb, feq_fin, c1, c3, if_false, sub_exact, lit_def]
          rw [div_exact _ _ hδ']
          simp only [add_exact, mul_exact, Sector.hue, reduceCtorEq, if_false]
          congr 1; field_simp; ring
      · push Not at c2
        have hgmn : g = mn := le_antisymm (by rw [hmn]; exact le_min (le_min c2.le le_rfl) (by rw [← c4]; exact hg2)) hg1
        refine key .E ((r - g) / (mx - mn)) (div_nonneg (by linarith) hδ.le) (by rw [div_le_one hδ]; linarith) (by simp) ?_ ?_ ?_ ?_
        · simp only [Sector.red]; field_simp; linarith
        · simp only [Sector.green]; linarith
        · simp only [Sector.blue]; linarith
        · simp only [Leaf.hueFromRgb, feq_fin, c1, c3, if_false, sub_exact, lit_def]
          rw [div_exact _ _ hδ']
          simp only [add_exact, mul_exact, Sector.hue, reduceCtorEq, if_false]
          congr 1; field_simp; ring

/-- `fmod x m` for `0 ≤ x < 2 m`. -/
noncomputable def wrap (m x : ℝ) : ℝ := if x < m then x else x - m

omit [FloatModel] [ExactModel] in
theorem fmod_wrap {x m : ℝ} (hm : 0 < m) (h0 : 0 ≤ x) (h1 : x < 2 * m) : fmod (fin x) (fin m) = fin (wrap m x) := by
  unfold wrap
  split
  · exact fmod_lt hm (by linarith) (by assumption)
  · exact fmod_ge hm (by linarith) h1

/-- The weight in `hsv_to_rgb_helper`. -/
noncomputable def hsvW (x : ℝ) : ℝ := max (min (wrap 6 x) (min (4 - wrap 6 x) 1)) 0

theorem hsv_helper (h s v n : ℝ) (h0 : 0 ≤ h) (h1 : h ≤ 360) (n0 : 0 ≤ n) (n1 : n < 6) :
    Leaf.hsvToRgb (fin h) (fin s) (fin v) (fin n) = fin (v - v * s * hsvW (n + h / 60)) := by
  simp only [Leaf.hsvToRgb, lit_def, zero_def, one_def]
  rw [div_exact _ _ (by norm_num), add_exact, fmod_wrap (by norm_num) (by positivity)
    (by have : h / 60 ≤ 6 := by rw [div_le_iff₀ (by norm_num)]; linarith
        linarith)]
  simp [hsvW]

theorem hsv_weights (k : Sector) (u : ℝ) (u0 : 0 ≤ u) (u1 : u ≤ 1) : hsvW (5 + k.hue u / 60) = 1 - k.red u ∧ hsvW (3 + k.hue u / 60) = 1 - k.green u ∧
    hsvW (1 + k.hue u / 60) = 1 - k.blue u := by
  have e : ∀ x : ℝ, 60 * x / 60 = x := fun x => by field_simp
  cases k <;> simp only [hsvW, wrap, Sector.hue, Sector.red, Sector.green, Sector.blue, e] <;> refine ⟨?_, ?_, ?_⟩ <;>
    simp only [max_def, min_def] <;> split_ifs <;> linarith

/-- The weight in `hsl_to_rgb_helper`. -/
noncomputable def hslW (x : ℝ) : ℝ := max (min (wrap 12 x - 3) (min (9 - wrap 12 x) 1)) (-1)

theorem hsl_helper (h s l n : ℝ) (h0 : 0 ≤ h) (h1 : h ≤ 360) (n0 : 0 ≤ n) (n1 : n < 12) :
    Leaf.hslToRgb (fin h) (fin s) (fin l) (fin n) = fin (l - s * min l (1 - l) * hslW (n + h / 30)) := by
  have hm : (-1 : Fl) = fin (-1) := by simp
  simp only [Leaf.hslToRgb, lit_def, one_def, hm]
  rw [div_exact _ _ (by norm_num), add_exact, fmod_wrap (by norm_num) (by positivity)
    (by have : h / 30 ≤ 12 := by rw [div_le_iff₀ (by norm_num)]; linarith
        linarith)]
  simp [hslW]

theorem hsl_weights (k : Sector) (u : ℝ) (u0 : 0 ≤ u) (u1 : u ≤ 1) : hslW (0 + k.hue u / 30) = 1 - 2 * k.red u ∧ hslW (8 + k.hue u / 30) = 1 - 2 * k.green u ∧
    hslW (4 + k.hue u / 30) = 1 - 2 * k.blue u := by
  have e : ∀ x : ℝ, 60 * x / 30 = 2 * x := fun x => by ring
  cases k <;> simp only [hslW, wrap, Sector.hue, Sector.red, Sector.green, Sector.blue, e] <;> refine ⟨?_, ?_, ?_⟩ <;>
    simp only [max_def, min_def] <;> split_ifs <;> linarith

/-- The first three values in `hcy_to_rgb_deep`. -/
theorem hcy_weights (k : Sector) (u : ℝ) (u0 : 0 ≤ u) (u1 : u ≤ 1) :
    Leaf.clampFloat (Fl.abs (fin (k.hue u) / 360 * 6 - 3) - 1) 0 1 = fin (k.red u) ∧
    Leaf.clampFloat (2 - Fl.abs (fin (k.hue u) / 360 * 6 - 2)) 0 1 = fin (k.green u) ∧
    Leaf.clampFloat (2 - Fl.abs (fin (k.hue u) / 360 * 6 - 4)) 0 1 = fin (k.blue u) := by
  have e : ∀ x : ℝ, 60 * x / 360 * 6 = x := fun x => by ring
  simp only [Leaf.clampFloat, lit_def, zero_def, one_def]
  rw [div_exact _ _ (by norm_num)]
  simp only [mul_exact, sub_exact, abs_fin, fmax_fin, fmin_fin, fin.injEq]
  cases k <;> simp only [Sector.hue, Sector.red, Sector.green, Sector.blue, e] <;> refine ⟨?_, ?_, ?_⟩ <;>
    simp only [max_def, min_def, abs_eq_max_neg] <;> split_ifs <;> linarith

/-- The chroma fraction in `hsi_to_rgb_deep`. -/
theorem hsi_z (k : Sector) (u : ℝ) (u0 : 0 ≤ u) (u1 : u ≤ 1) : 1 - Fl.abs (fmod (fin (k.hue u) / 60) 2 - 1) = fin u := by
  have e : ∀ x : ℝ, 60 * x / 60 = x := fun x => by field_simp
  simp only [lit_def, one_def]
  rw [div_exact _ _ (by norm_num)]
  have key : ∀ (x : ℝ) (z : ℤ), 0 ≤ x → (z : ℝ) * 2 ≤ x → x < (z + 1 : ℝ) * 2 → fmod (fin x) (fin 2) = fin (x - 2 * z) := by
    intro x z hx h1 h2
    have : truncR (x / 2) = z := by
      unfold truncR
      rw [if_pos (by positivity), Int.floor_eq_iff]
      constructor <;> linarith
    simp [fmod, this]
  have fin2 : ∀ (x : ℝ), (fin 1 - Fl.abs (fin x - fin 1) : Fl) = fin (1 - |x - 1|) := fun x => by simp
  cases k <;> simp only [Sector.hue, e]
  · rw [key u 0 (by linarith) (by norm_num; linarith) (by norm_num; linarith), fin2, fin.injEq, abs_of_nonpos (by norm_num; linarith)]; norm_num
  · rcases u0.eq_or_lt with rfl | h
    · rw [key _ 1 (by linarith) (by norm_num) (by norm_num), fin2]; norm_num
    · rw [key _ 0 (by linarith) (by norm_num; linarith) (by norm_num; linarith), fin2, fin.injEq, abs_of_nonneg (by norm_num; linarith)]; norm_num <;> ring
  · rw [key _ 1 (by linarith) (by norm_num; linarith) (by norm_num; linarith), fin2, fin.injEq, abs_of_nonpos (by norm_num; linarith)]; norm_num
  · rcases u0.eq_or_lt with rfl | h
    · rw [key _ 2 (by linarith) (by norm_num) (by norm_num), fin2]; norm_num
    · rw [key _ 1 (by linarith) (by norm_num; linarith) (by norm_num; linarith), fin2, fin.injEq, abs_of_nonneg (by norm_num; linarith)]; norm_num <;> ring
  · rw [key _ 2 (by linarith) (by norm_num; linarith) (by norm_num; linarith), fin2, fin.injEq, abs_of_nonpos (by norm_num; linarith)]; norm_num <;> ring
  · rcases u0.eq_or_lt with rfl | h
    · rw [key _ 3 (by linarith) (by norm_num) (by norm_num), fin2]; norm_num
    · rw [key _ 2 (by linarith) (by norm_num; linarith) (by norm_num; linarith), fin2, fin.injEq, abs_of_nonneg (by norm_num; linarith)]; norm_num <;> ring

theorem hsi_sector (k : Sector) (u C : ℝ) (u0 : 0 ≤ u) (u1 : u ≤ 1) :
    Leaf.sector (fin (k.hue u) / 60) (fin C) (fin (C * u)) = [fin (C * k.red u), fin (C * k.green u), fin (C * k.blue u)] := by
  have e : ∀ x : ℝ, 60 * x / 60 = x := fun x => by field_simp
  simp only [Leaf.sector, lit_def, zero_def, one_def]
  rw [div_exact _ _ (by norm_num)]
  cases k <;> simp only [Sector.hue, Sector.red, Sector.green, Sector.blue, e, fin_le, fin_lt, mul_one, mul_zero]
  · rw [if_pos ⟨by linarith, by linarith⟩]
  · rcases u1.eq_or_lt with rfl | h
    · norm_num
    · rw [if_neg (fun hh => by linarith [hh.1, hh.2]), if_pos ⟨by linarith, by linarith⟩]
  · rcases u0.eq_or_lt with rfl | h
    · norm_num
    · rw [if_neg (fun hh => by linarith [hh.1, hh.2]), if_neg (fun hh => by linarith [hh.1, hh.2]), if_pos ⟨by linarith, by linarith⟩]
  · rcases u1.eq_or_lt with rfl | h
    · norm_num
    · rw [if_neg (fun hh => by linarith [hh.1, hh.2]), if_neg (fun hh => by linarith [hh.1, hh.2]), if_neg (fun hh => by linarith [hh.1, hh.2]), if_pos ⟨by linarith, by linarith⟩]
  · rcases u0.eq_or_lt with rfl | h
    · norm_num
    · rw [if_neg (fun hh => by linarith [hh.1, hh.2]), if_neg (fun hh => by linarith [hh.1, hh.2]), if_neg (fun hh => by linarith [hh.1, hh.2]), if_neg (fun hh => by linarith [hh.1, hh.2]), if_pos ⟨by linarith, by linarith⟩]
  · rcases u1.eq_or_lt with rfl | h
    · norm_num
    · rw [if_neg (fun hh => by linarith [hh.1, hh.2]), if_neg (fun hh => by linarith [hh.1, hh.2]), if_neg (fun hh => by linarith [hh.1, hh.2]), if_neg (fun hh => by linarith [hh.1, hh.2]), if_neg (fun hh => by linarith [hh.1, hh.2]), if_pos ⟨by linarith, by linarith⟩]

omit [FloatModel] [ExactModel] in
/-- A colour has only one hue. -/
theorem hue_unique {k k' : Sector} {u u' : ℝ} (u0 : 0 ≤ u) (u1 : u ≤ 1) (u0' : 0 ≤ u') (u1' : u' ≤ 1) (h : k.hue u < 360) (h' : k'.hue u' < 360)
    (e1 : k.red u = k'.red u') (e2 : k.green u = k'.green u') (e3 : k.blue u = k'.blue u') : k.hue u = k'.hue u' := by
  cases k <;> cases k' <;> simp only [Sector.hue, Sector.red, Sector.green, Sector.blue] at * <;> linarith

omit [FloatModel] [ExactModel] in
/-- Every hue below 360 degrees lies in a sector. -/
theorem exists_sector (h : ℝ) (h0 : 0 ≤ h) (h1 : h < 360) : ∃ k u, 0 ≤ u ∧ u ≤ 1 ∧ (k = Sector.F → 0 < u) ∧ Sector.hue k u = h := by
  rcases le_or_gt h 60 with a | a
  · exact ⟨.A, h / 60, by positivity, by linarith, by simp, by simp only [Sector.hue]; ring⟩
  rcases le_or_gt h 120 with b | b
  · exact ⟨.B, 2 - h / 60, by linarith, by linarith, by simp, by simp only [Sector.hue]; ring⟩
  rcases le_or_gt h 180 with c | c
  · exact ⟨.C, h / 60 - 2, by linarith, by linarith, by simp, by simp only [Sector.hue]; ring⟩
  rcases le_or_gt h 240 with d | d
  · exact ⟨.D, 4 - h / 60, by linarith, by linarith, by simp, by simp only [Sector.hue]; ring⟩
  rcases le_or_gt h 300 with e | e
  · exact ⟨.E, h / 60 - 4, by linarith, by linarith, by simp, by simp only [Sector.hue]; ring⟩
  · exact ⟨.F, 6 - h / 60, by linarith, by linarith, fun _ => by linarith, by simp only [Sector.hue]; ring⟩

end Hue
