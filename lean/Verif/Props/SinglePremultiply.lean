import Verif.Props.SingleMix

/-!
# Property C169: premultiplied alpha in single precision

C09 says that `alpha_multiply` followed by `alpha_divide` gives back the colour in exact arithmetic.  Here the same for an arithmetic that rounds.
-/

open Outcome Fl Color ObjectSpec ConvSpec CalcSpec Calc

namespace PremultiplySpec

/-- The same object up to the components. -/
def SameBut (r c : Color) : Prop := r.cls = c.cls ∧ r.ctype = c.ctype ∧ r.malpha = c.malpha ∧ r.maxv = c.maxv ∧ r.minv = c.minv ∧ r.space = c.space

/-- The object that `alpha_multiply` and then `alpha_divide` leave behind. -/
noncomputable def roundTrip [FloatModel] (c : Color) : Color := c.alphaMultiply.alphaDivide

end PremultiplySpec

open PremultiplySpec

section
variable [FloatModel]

theorem PremultiplySpec.trip_eq {c : Color} {a : ℝ} (ha : c.malpha = fin a) (h0 : a ≠ 0) : roundTrip c = { c with comps := c.comps.map fun x => x * fin a / fin a } := by
  unfold roundTrip alphaDivide alphaMultiply
  have : ¬ feq c.malpha 0 := by rw [ha]; simp [h0]
  rw [if_neg this]
  simp only [ha, List.map_map, Function.comp_def]

theorem PremultiplySpec.trip_same {c : Color} {a : ℝ} (ha : c.malpha = fin a) (h0 : a ≠ 0) : SameBut (roundTrip c) c := by
  rw [trip_eq ha h0]
  exact ⟨rfl, rfl, rfl, rfl, rfl, rfl⟩

/-- C169: premultiplied components are between zero and the component, whatever the rounding. -/
theorem C169_premultiplied_partial (c : Color) (a : ℝ) (ha : c.malpha = fin a) (h0 : 0 ≤ a) (h1 : a ≤ 1) (i : Nat) (x : ℝ) (hx : c.comps[i]? = some (fin x)) (hf : rnd x = fin x) (hx0 : 0 ≤ x) :
    SameBut c.alphaMultiply c ∧ ∃ y, c.alphaMultiply.comps[i]? = some (fin y) ∧ 0 ≤ y ∧ y ≤ x := by
  refine ⟨⟨rfl, rfl, rfl, rfl, rfl, rfl⟩, ?_⟩
  have m0 := FloatModel.rnd_mono 0 (x * a) (by positivity)
  have m1 := FloatModel.rnd_mono (x * a) x (by nlinarith)
  rw [FloatModel.rnd_zero] at m0
  rw [hf] at m1
  have e : c.alphaMultiply.comps[i]? = some (rnd (x * a)) := by
    simp only [alphaMultiply, List.getElem?_map, hx, Option.map_some, ha, fin_mul]
  rw [e]
  cases h : rnd (x * a) with
  | fin y => rw [h] at m0 m1; exact ⟨y, rfl, by simpa using m0, by simpa using m1⟩
  | nan => rw [h] at m0; simp at m0
  | pinf => rw [h] at m1; simp at m1
  | ninf => rw [h] at m0; simp at m0

/-- C169: with alpha 1 both operations leave the colour alone. -/
theorem C169_opaque (c : Color) (ha : c.malpha = fin 1) (hf : ∀ x ∈ c.comps, ∃ r, x = fin r ∧ rnd r = fin r) : c.alphaMultiply = c ∧ c.alphaDivide = c := by
  have h : ¬ feq c.malpha 0 := by rw [ha]; simp
  have hm : c.comps.map (· * c.malpha) = c.comps := by
    refine (List.map_congr_left (g := id) fun x hx => ?_).trans (List.map_id _)
    obtain ⟨r, rfl, hr⟩ := hf x hx
    rw [ha, fin_mul, mul_one, hr, id]
  have hd : c.comps.map (· / c.malpha) = c.comps := by
    refine (List.map_congr_left (g := id) fun x hx => ?_).trans (List.map_id _)
    obtain ⟨r, rfl, hr⟩ := hf x hx
    rw [ha, fin_div r 1 one_ne_zero, div_one, hr, id]
  constructor
  · unfold alphaMultiply; rw [hm]
  · unfold alphaDivide; rw [if_neg h, hd]

variable [FineError]

theorem PremultiplySpec.number {x a : ℝ} (ha : 1 / 2 ^ 90 ≤ a) (h1 : a ≤ 1) (hx : |x| ≤ 1000) : ∃ y, fin x * fin a / fin a = fin y ∧ |y - x| ≤ 2.1 * |x| / 2 ^ 23 + 2.1 / (2 ^ 100 * a) := by
  have a0 : 0 < a := lt_of_lt_of_le (by positivity) ha
  have hax : |x * a| = |x| * a := by rw [abs_mul, abs_of_pos a0]
  obtain ⟨p, hp, ep⟩ := FineError.rnd_near (x * a) (by rw [hax]; have := abs_nonneg x; norm_num; nlinarith)
  rw [hax] at ep
  set δ : ℝ := 1 / (2 ^ 100 * a) with hδ
  have d1 : δ ≤ 1 / 2 ^ 10 := by
    rw [hδ, div_le_div_iff₀ (by positivity) (by positivity)]
    have : (2 : ℝ) ^ 100 * (1 / 2 ^ 90) ≤ 2 ^ 100 * a := by gcongr
    norm_num at this ⊢; linarith
  have d2 : 1 / 2 ^ 100 ≤ δ := by rw [hδ]; gcongr; nlinarith [pow_pos (two_pos : (0 : ℝ) < 2) 100]
  have q1 : |p / a - x| ≤ |x| / 2 ^ 23 + δ := by
    have : p / a - x = (p - x * a) / a := by field_simp
    rw [this, abs_div, abs_of_pos a0, div_le_iff₀ a0]
    refine ep.trans (le_of_eq ?_)
    rw [hδ]; field_simp
  have q2 : |p / a| ≤ |x| + (|x| / 2 ^ 23 + δ) := by
    have := abs_add_le (p / a - x) x
    rw [sub_add_cancel] at this
    linarith
  obtain ⟨y, hy, ey⟩ := FineError.rnd_near (p / a) (by
    have := abs_nonneg x
    norm_num at *; linarith)
  refine ⟨y, by rw [fin_mul, hp, fin_div _ _ a0.ne', hy], ?_⟩
  have t := abs_sub_le y (p / a) x
  have : (2.1 : ℝ) / (2 ^ 100 * a) = 2.1 * δ := by rw [hδ]; ring
  rw [this]
  have x0 := abs_nonneg x
  clear ep d1 hax ha hx this
  generalize |x| = X at *
  clear_value δ
  norm_num at q1 q2 ey d2 ⊢
  linarith

/-- C169: multiplying and dividing changes a component by at most 2.1 parts in 2^23, and a tiny amount that only matters for extremely small alpha values. -/
theorem C169_round_trip (c : Color) (a : ℝ) (ha : c.malpha = fin a) (h0 : 1 / 2 ^ 90 ≤ a) (h1 : a ≤ 1) :
    SameBut (roundTrip c) c ∧ (roundTrip c).comps.length = c.comps.length ∧
      ∀ (i : Nat) (x : ℝ), c.comps[i]? = some (fin x) → |x| ≤ 1000 → ∃ y, (roundTrip c).comps[i]? = some (fin y) ∧ |y - x| ≤ 2.1 * |x| / 2 ^ 23 + 2.1 / (2 ^ 100 * a) := by
  have a0 : a ≠ 0 := (lt_of_lt_of_le (by positivity) h0).ne'
  refine ⟨trip_same ha a0, by rw [trip_eq ha a0]; simp, fun i x hx hb => ?_⟩
  obtain ⟨y, hy, he⟩ := number h0 h1 hb
  refine ⟨y, ?_, he⟩
  rw [trip_eq ha a0]
  simp only [List.getElem?_map, hx, Option.map_some, hy]

/-- C169: 8-bit components come back after rounding, for every alpha value that 8 bits can express. -/
theorem C169_bytes (c : Color) (a : ℝ) (ha : c.malpha = fin a) (h0 : 1 / 256 ≤ a) (h1 : a ≤ 1) (i n : Nat) (hn : n ≤ 255) (hx : c.comps[i]? = some (fin n)) :
    ∃ y, (roundTrip c).comps[i]? = some (fin y) ∧ round y = n := by
  have hn' : (n : ℝ) ≤ 255 := by exact_mod_cast hn
  have n0 : (0 : ℝ) ≤ n := by positivity
  obtain ⟨y, hy, he⟩ := (C169_round_trip c a ha (le_trans (by norm_num) h0) h1).2.2 i n hx (by rw [abs_of_nonneg n0]; linarith)
  refine ⟨y, hy, ?_⟩
  rw [abs_of_nonneg n0] at he
  have t : (2.1 : ℝ) / (2 ^ 100 * a) ≤ 2.1 / (2 ^ 100 * (1 / 256)) := by gcongr
  have : |y - n| < 1 / 2 := by
    refine lt_of_le_of_lt (he.trans (add_le_add_right t _)) ?_
    norm_num; linarith
  rw [abs_lt] at this
  rw [round_eq, Int.floor_eq_iff]
  push_cast
  constructor <;> linarith

end

/-- C169: the result can leave the documented range.  White with an opacity of about 0.68 comes back brighter than 255. -/
theorem C169_violated : letI := Binary32.binary32
    ∃ c : Color, Proper .rgbTrue c ∧ (∀ x ∈ c.malpha :: c.comps, ∃ r, x = fin r ∧ rnd r = fin r) ∧ ∃ y : ℝ, (roundTrip c).comps = [fin y, fin y, fin y] ∧ 255 < y := by
  letI := Binary32.binary32
  set a : ℝ := 11468637 / 2 ^ 24 with ha
  have ra : rnd a = fin a := by
    have := Binary32.round_exact 11468637 (-24) (by norm_num) (by norm_num) (by norm_num)
    refine Eq.trans ?_ (this.trans ?_)
    · change Binary32.round32 a = _; rw [ha]; norm_num
    · rw [ha]; norm_num
  have r255 : rnd (255 : ℝ) = fin 255 := by simpa using Binary32.binary32_int.rnd_int 255 (by norm_num)
  have e1 : rnd (255 * a) = fin (11423838 / 2 ^ 16) := by
    have := Binary32.round_eq (r := 255 * a) 11423838 (-16) (by norm_num) (by norm_num) (by rw [ha]; norm_num [abs_of_pos]) (by rw [ha]; norm_num [abs_of_pos]) (by rw [ha]; norm_num [abs_lt])
    refine Eq.trans this ?_
    norm_num
  have e2 : rnd (11423838 / 2 ^ 16 / a) = fin (16711681 / 2 ^ 16) := by
    have := Binary32.round_eq (r := 11423838 / 2 ^ 16 / a) 16711681 (-16) (by norm_num) (by norm_num) (by rw [ha]; norm_num [abs_of_pos]) (by rw [ha]; norm_num [abs_of_pos])
      (by rw [ha]; norm_num [abs_lt])
    refine Eq.trans this ?_
    norm_num
  have a0 : a ≠ 0 := by rw [ha]; norm_num
  refine ⟨⟨.rgbTrue, .rgbTrue, [fin 255, fin 255, fin 255], fin a, 255, 0, none⟩, ⟨⟨rfl, rfl, rfl, rfl, rfl⟩, fun i hi => ?_, ⟨a, rfl, by rw [ha]; norm_num, by rw [ha]; norm_num⟩⟩, ?_, 16711681 / 2 ^ 16, ?_, by norm_num⟩
  · have hi' : i < 3 := by simpa using hi
    refine ⟨255, ?_, by simp [setterRange, channelRange], by simp [setterRange, channelRange]⟩
    rcases i with _ | _ | _ | i <;> first | rfl | omega
  · intro x hx
    simp only [List.mem_cons, List.not_mem_nil, or_false] at hx
    rcases hx with rfl | rfl | rfl | rfl
    exacts [⟨a, rfl, ra⟩, ⟨255, rfl, r255⟩, ⟨255, rfl, r255⟩, ⟨255, rfl, r255⟩]
  · rw [trip_eq (a := a) rfl a0]
    simp only [List.map_cons, List.map_nil, fin_mul, e1, fin_div _ _ a0, e2]

/-- C169: with the smallest alpha value above zero, dark components are lost. -/
theorem C169_lost_violated (c : Color) (ha : c.malpha = fin (1 / 2 ^ 149)) (i : Nat) (x : ℝ) (hx : c.comps[i]? = some (fin x)) (h0 : 0 < x) (h1 : x < 1 / 2) : letI := Binary32.binary32
    rnd (1 / 2 ^ 149) = fin (1 / 2 ^ 149) ∧ (roundTrip c).comps[i]? = some (fin 0) := by
  letI := Binary32.binary32
  have a0 : (1 / 2 ^ 149 : ℝ) ≠ 0 := by positivity
  constructor
  · have := Binary32.round_exact 1 (-149) (by norm_num) (by norm_num) (by norm_num)
    refine Eq.trans ?_ (this.trans ?_)
    · change Binary32.round32 (1 / 2 ^ 149) = _; norm_num
    · norm_num
  · rw [trip_eq ha a0]
    have e : rnd (x * (1 / 2 ^ 149)) = fin 0 := Binary32.round_tiny (by rw [abs_of_pos (by positivity)]; nlinarith [pow_pos (two_pos : (0 : ℝ) < 2) 149])
    simp only [List.getElem?_map, hx, Option.map_some, fin_mul, e, fin_div _ _ a0, zero_div, FloatModel.rnd_zero]

/-- A half transparent colour in binary32. -/
example : letI := Binary32.binary32
    ∃ y, (roundTrip ⟨.rgbTrue, .rgbTrue, [fin ((200 : ℕ) : ℝ), fin 10, fin 0], fin (1 / 3), 255, 0, none⟩).comps[0]? = some (fin y) ∧ round y = ((200 : ℕ) : ℤ) := by
  letI := Binary32.binary32
  haveI := Binary32.binary32_fine
  exact C169_bytes _ (1 / 3) rfl (by norm_num) (by norm_num) 0 200 (by norm_num) rfl
