import Verif.MixNear
import Verif.Props.SingleDistance

/-!
# Mixtures and gradients in single precision (C167)

The classes whose mixtures are computed channel by channel.  `C167_mix` and `C167_self` hold for every arithmetic with the precision of `float`, the others are about `binary32`.
-/

open Outcome Fl Prog ObjectSpec ConvSpec BlendSpec CalcSpec Calc

section
variable [FloatModel] [IntExact] [FineError] [SquareNear]

/-- C167: a mixture of two colours is within one millionth of the range of the channels of the weighted mean (for RGB the weighted root mean square) of the two, and never outside the range. -/
theorem C167_mix (t : ColorType) (ht : Flat t) (a b : Color) (ha : Proper t a) (hb : Proper t b) (w : ℝ) (h0 : 0 ≤ w) (h1 : w ≤ 1) (ia : Bool) (wl : World) :
    ∃ r, Yields (mixOf t (fin w) ia) wl a b r ∧ IsColor t r ∧ r.space = a.space ∧
      (∀ i < Color.count t, ∃ y : ℝ, r.comps[i]? = some (fin y) ∧ (setterRange t i).1 ≤ y ∧ y ≤ (setterRange t i).2 ∧
        |y - (if t = .rgbTrue ∨ t = .rgbDeep then Real.sqrt (w * chan a i ^ 2 + (1 - w) * chan b i ^ 2) else w * chan a i + (1 - w) * chan b i)| ≤ span t / 10 ^ 6) ∧
      ∃ o : ℝ, r.malpha = fin o ∧
        |o - (if ia then (if t = .rgbTrue ∨ t = .rgbDeep then Real.sqrt (w * opac a ^ 2 + (1 - w) * opac b ^ 2) else w * opac a + (1 - w) * opac b) else opac a)| ≤ 2 / 10 ^ 6 := by
  have hspan : 1 ≤ (span t : ℝ) ∧ (span t : ℝ) ≤ 255 := by rcases ht with rfl | rfl | rfl | rfl | rfl | rfl | rfl | rfl <;> norm_num [span]
  have size : ∀ c, Proper t c → ∀ i < Color.count t, |chan c i| ≤ span t := fun c hc i hi => by
    obtain ⟨p, q, e, hp, hq⟩ := limits_whole t i
    have h := hc.chan_range hi
    rw [e] at h
    have hp' : |(p : ℝ)| ≤ span t := by exact_mod_cast hp
    have hq' : |(q : ℝ)| ≤ span t := by exact_mod_cast hq
    rw [abs_le] at hp' hq' ⊢
    constructor <;> linarith
  have hW : Weight (fin w) := ⟨w, rfl, h0, h1⟩
  have hcomb : ∀ i, ∃ y : ℝ, i < Color.count t → combF t (fin w) (1 - fin w) (fin (chan a i)) (fin (chan b i)) = fin y ∧ |y - combR t w (chan a i) (chan b i)| ≤ span t / 10 ^ 6 := fun i => by
    by_cases hi : i < Color.count t
    · obtain ⟨y, e, n⟩ := comb_near t h0 h1 hspan.1 hspan.2 (size a ha i hi) (size b hb i hi)
      exact ⟨y, fun _ => ⟨e, n⟩⟩
    · exact ⟨0, fun h => absurd h hi⟩
  choose g hg using hcomb
  have hadd := addVal_flat ht ha hb (fin w) (1 - fin w) ia g (fun i hi => (hg i hi).1)
  have htu : t ≠ .undefined := by rintro rfl; simp [Flat] at ht
  refine ⟨_, mixOf_flat ht (pass_of hW) (pass_of (weight_rest hW)) hadd, ⟨rfl, rfl, by simp, rfl, rfl⟩, rfl, fun i hi => ?_, ?_⟩
  · have hr := mixed_range ha hb h0 h1 hi
    have hlh : (setterRange t i).1 ≤ (setterRange t i).2 := hr.1.trans hr.2
    exact ⟨max (min (g i) (setterRange t i).2) (setterRange t i).1, by simp [hi], le_max_right _ _, max_le (min_le_right _ _) hlh, (limit_near hr.1 hr.2).trans (hg i hi).2⟩
  · have oa := ha.opac_range
    have ob := hb.opac_range
    have hal := combR_between t (x := opac a) (y := opac b) h0 h1 (fun _ => ⟨oa.1, ob.1⟩)
    have hal0 : 0 ≤ combR t w (opac a) (opac b) := (le_min oa.1 ob.1).trans hal.1
    have hal1 : combR t w (opac a) (opac b) ≤ 1 := hal.2.trans (max_le oa.2 ob.2)
    have hv : 0 ≤ (if ia then combR t w (opac a) (opac b) else opac a) ∧ (if ia then combR t w (opac a) (opac b) else opac a) ≤ 1 := by
      split
      · exact ⟨hal0, hal1⟩
      · exact oa
    have goal : Near (if Color.scalesAlpha t then Color.clamp (byteLimit (alphaOf (combF t (fin w) (1 - fin w)) ia a b) / 255) 1 0 else alphaOf (combF t (fin w) (1 - fin w)) ia a b)
        (if ia then combR t w (opac a) (opac b) else opac a) (2 / 10 ^ 6) := by
      by_cases hs : Color.scalesAlpha t = true
      · have al : ∀ c, Proper t c → c.alpha = rnd (opac c * 255) := fun c hc => by rw [Color.alpha, hc.col.cls, if_pos hs, hc.opac_eq, lit_def, fin_mul]
        rw [if_pos hs]
        refine scaled_near hv.1 hv.2 ?_
        have sz : ∀ c, Proper t c → |opac c * 255| ≤ 255 := fun c hc => by
          have := hc.opac_range
          rw [abs_le]; constructor <;> linarith
        cases ia with
        | true =>
          simp only [alphaOf, if_true, al a ha, al b hb]
          rw [← combR_scale t w _ _ (by norm_num)]
          exact comb_rnd t h0 h1 (sz a ha) (sz b hb)
        | false =>
          simp only [alphaOf, Bool.false_eq_true, if_false, al a ha]
          obtain ⟨y, e, n⟩ := FineError.rnd_near (opac a * 255) ((sz a ha).trans (by norm_num))
          refine ⟨y, e, n.trans ?_⟩
          have := sz a ha
          norm_num at this ⊢
          linarith
      · have al : ∀ c, Proper t c → c.alpha = fin (opac c) := fun c hc => by rw [Color.alpha, hc.col.cls, if_neg hs, hc.opac_eq]
        rw [if_neg hs]
        cases ia with
        | true =>
          simp only [alphaOf, if_true, al a ha, al b hb]
          exact (comb_near t h0 h1 le_rfl (by norm_num) (by rw [abs_of_nonneg oa.1]; exact oa.2) (by rw [abs_of_nonneg ob.1]; exact ob.2)).weaken (by norm_num)
        | false =>
          simp only [alphaOf, Bool.false_eq_true, if_false, al a ha]
          exact (near_fin _).weaken (by norm_num)
    obtain ⟨o, e, n⟩ := goal
    exact ⟨o, e, n⟩

/-- C167: mixing a colour with itself changes no channel by more than one millionth of the range; 8-bit channels stay within 1/3000 of their value, so they round back to it. -/
theorem C167_self (t : ColorType) (ht : Flat t) (a : Color) (ha : Proper t a) (w : ℝ) (h0 : 0 ≤ w) (h1 : w ≤ 1) (ia : Bool) (wl : World) :
    ∃ r, Yields (mixOf t (fin w) ia) wl a a r ∧ IsColor t r ∧ ∀ i < Color.count t, ∃ y : ℝ, r.comps[i]? = some (fin y) ∧ |y - chan a i| ≤ span t / 10 ^ 6 ∧ ∀ n : ℤ, chan a i = n → round y = n := by
  obtain ⟨r, hr, hc, -, h, -⟩ := C167_mix t ht a a ha ha w h0 h1 ia wl
  refine ⟨r, hr, hc, fun i hi => ?_⟩
  obtain ⟨y, e, -, -, n⟩ := h i hi
  have := combR_self t w (nonneg_rgb ha hi)
  rw [combR] at this
  rw [this] at n
  refine ⟨y, e, n, fun k hk => ?_⟩
  have hspan : (span t : ℝ) ≤ 255 := by rcases ht with rfl | rfl | rfl | rfl | rfl | rfl | rfl | rfl <;> norm_num [span]
  rw [hk, abs_le] at n
  rw [round_eq, Int.floor_eq_iff]
  norm_num at n
  constructor <;> linarith

end

namespace Calc
open Binary32

/-- With the weights one and nothing the sums return the first operand. -/
theorem comb_first (t : ColorType) {x y : ℝ} (hx : round32 x = fin x) (h0 : t = .rgbTrue ∨ t = .rgbDeep → x = 0 ∨ 1 / 2 ^ 60 ≤ x) (h1 : |x| ≤ 255) (hy : |y| ≤ 255) : letI := binary32
    combF t (fin 1) (1 - fin 1) (fin x) (fin y) = fin x ∧ combF t (fin 0) (1 - fin 0) (fin y) (fin x) = fin x := by
  letI := binary32
  haveI := binary32_square
  have r0 : rnd (0 : ℝ) = fin 0 := FloatModel.rnd_zero
  have r1 : rnd (1 : ℝ) = fin 1 := by simpa using binary32_int.rnd_int 1 (by norm_num)
  have hx' : rnd x = fin x := hx
  have s1 : (1 : Fl) - fin 1 = fin 0 := by rw [one_def, fin_sub, sub_self, r0]
  have s0 : (1 : Fl) - fin 0 = fin 1 := by rw [one_def, fin_sub, sub_zero, r1]
  have two : (2 : Fl) = fin 2 := by simp
  unfold combF
  split
  · next ht =>
    obtain ⟨q, eq, -, -⟩ := SquareNear.square_near y (hy.trans (by norm_num))
    have hroot : ∃ v, powf (fin x) (fin 2) = fin v ∧ 0 ≤ v ∧ rnd v = fin v ∧ rnd (Real.sqrt v) = fin x := by
      rcases h0 ht with rfl | hx0
      · refine ⟨0, ?_, le_rfl, r0, by rw [Real.sqrt_zero, r0]⟩
        have := powf_two 0
        rw [this]; simpa using round_zero
      · obtain ⟨v, e, v0, hv⟩ := root_square hx hx0 (by rw [abs_le] at h1; norm_num; linarith)
        exact ⟨v, (powf_two x).trans e, v0, round_again e, hv⟩
    obtain ⟨v, ev, v0, hv, hs⟩ := hroot
    have hsq : Fl.sqrt (fin v) = fin x := by simp only [Fl.sqrt, if_neg (not_lt.mpr v0)]; exact hs
    simp only [quadratic, s1, s0, two, ev, eq, fin_mul, one_mul, zero_mul, hv, r0, fin_add, add_zero, zero_add, hsq, and_self]
  · simp only [linear, s1, s0, fin_mul, one_mul, zero_mul, hx', r0, fin_add, add_zero, zero_add, and_self]

end Calc

/-- C167: in single precision a gradient starts and ends with the components of the two colours, exactly.  For RGB the components must not be extremely small numbers other than 0. -/
theorem C167_ends_partial (t : ColorType) (ht : Flat t) (a b : Color) (ha : Proper t a) (hb : Proper t b)
    (fa : ∀ i < Color.count t, Binary32.round32 (chan a i) = fin (chan a i)) (fb : ∀ i < Color.count t, Binary32.round32 (chan b i) = fin (chan b i))
    (na : t = .rgbTrue ∨ t = .rgbDeep → ∀ i < Color.count t, (chan a i = 0 ∨ 1 / 2 ^ 60 ≤ chan a i) ∧ (chan b i = 0 ∨ 1 / 2 ^ 60 ≤ chan b i)) (ia : Bool) (wl : World) : letI := Binary32.binary32
    (∃ r, Yields (mixOf t (fin 1) ia) wl a b r ∧ IsColor t r ∧ r.comps = a.comps) ∧ ∃ r, Yields (mixOf t (fin 0) ia) wl a b r ∧ IsColor t r ∧ r.comps = b.comps := by
  letI := Binary32.binary32
  haveI := Binary32.binary32_int
  have hspan : (span t : ℝ) ≤ 255 := by rcases ht with rfl | rfl | rfl | rfl | rfl | rfl | rfl | rfl <;> norm_num [span]
  have size : ∀ c, Proper t c → ∀ i < Color.count t, |chan c i| ≤ 255 := fun c hc i hi => by
    obtain ⟨p, q, e, hp, hq⟩ := limits_whole t i
    have h := hc.chan_range hi
    rw [e] at h
    have hp' : |(p : ℝ)| ≤ span t := by exact_mod_cast hp
    have hq' : |(q : ℝ)| ≤ span t := by exact_mod_cast hq
    rw [abs_le] at hp' hq' ⊢
    constructor <;> linarith
  have keep : ∀ c, Proper t c → (List.range (Color.count t)).map (fun i => fin (max (min (chan c i) (setterRange t i).2) (setterRange t i).1)) = c.comps := fun c hc => by
    rw [hc.comps]
    refine List.map_congr_left fun i hi => ?_
    have hr := hc.chan_range (i := i) (by simpa using hi)
    rw [min_eq_left hr.2, max_eq_left hr.1]
  have w1 : Weight (fin 1) := ⟨1, rfl, by norm_num, le_rfl⟩
  have w0 : Weight (fin 0) := ⟨0, rfl, le_rfl, by norm_num⟩
  constructor
  · have hadd := addVal_flat ht ha hb (fin 1) (1 - fin 1) ia (chan a) (fun i hi => (comb_first t (fa i hi) (fun h => (na h i hi).1) (size a ha i hi) (size b hb i hi)).1)
    exact ⟨_, mixOf_flat ht (pass_of w1) (pass_of (weight_rest w1)) hadd, ⟨rfl, rfl, by simp, rfl, rfl⟩, keep a ha⟩
  · have hadd := addVal_flat ht ha hb (fin 0) (1 - fin 0) ia (chan b) (fun i hi => (comb_first t (fb i hi) (fun h => (na h i hi).2) (size b hb i hi) (size a ha i hi)).2)
    exact ⟨_, mixOf_flat ht (pass_of w0) (pass_of (weight_rest w0)) hadd, ⟨rfl, rfl, by simp, rfl, rfl⟩, keep b hb⟩

/-- C167: an extremely dark RGB colour does not survive: its squares underflow, and a gradient that starts with it starts with black. -/
theorem C167_violated (wl : World) (ia : Bool) : letI := Binary32.binary32
    ∃ a : Color, Proper .rgbDeep a ∧ (∀ i < 3, Binary32.round32 (chan a i) = fin (chan a i) ∧ 0 < chan a i) ∧
      ∃ r, Yields (mixOf .rgbDeep (fin 1) ia) wl a (white none) r ∧ r.comps = [fin 0, fin 0, fin 0] := by
  letI := Binary32.binary32
  haveI := Binary32.binary32_int
  haveI := Binary32.binary32_square
  set x : ℝ := 1 / 2 ^ 80 with hx
  have hx0 : 0 < x := by positivity
  have hx1 : x ≤ 1 := by rw [hx]; norm_num
  have proper : ∀ y : ℝ, 0 ≤ y → y ≤ 1 → Proper .rgbDeep ⟨.rgbDeep, .rgbDeep, [fin y, fin y, fin y], fin 1, 1, 0, none⟩ := fun y h0 h1 =>
    ⟨⟨rfl, rfl, rfl, rfl, rfl⟩, fun i hi => by
      have hi' : i < 3 := by simpa using hi
      refine ⟨y, ?_, by simpa [setterRange, channelRange] using h0, by simpa [setterRange, channelRange] using h1⟩
      rcases i with _ | _ | _ | i <;> first | rfl | omega, ⟨1, rfl, by norm_num, le_rfl⟩⟩
  have pa := proper x hx0.le hx1
  have pb := proper 1 (by norm_num) le_rfl
  have fx : Binary32.round32 x = fin x := by
    have := Binary32.round_exact 1 (-80) (by norm_num) (by norm_num) (by norm_num)
    rw [Int.cast_one, one_mul] at this
    rw [hx]; convert this using 2 <;> norm_num
  have r0 : rnd (0 : ℝ) = fin 0 := FloatModel.rnd_zero
  have s1 : (1 : Fl) - fin 1 = fin 0 := by rw [one_def, fin_sub, sub_self, r0]
  have two : (2 : Fl) = fin 2 := by simp
  have px : powf (fin x) (fin 2) = fin 0 := by
    rw [Binary32.powf_two]
    refine Binary32.round_tiny ?_
    rw [hx]; norm_num
  obtain ⟨q, eq, -, -⟩ := SquareNear.square_near 1 (by norm_num)
  have hcomb : combF .rgbDeep (fin 1) (1 - fin 1) (fin x) (fin 1) = fin 0 := by
    simp only [combF, or_true, if_true, quadratic, s1, two, px, eq, fin_mul, one_mul, mul_zero, zero_mul, r0, fin_add, add_zero]
    simp only [Fl.sqrt, lt_irrefl, if_false, Real.sqrt_zero, r0]
  have ch : ∀ y : ℝ, ∀ i < 3, chan ⟨.rgbDeep, .rgbDeep, [fin y, fin y, fin y], fin 1, 1, 0, none⟩ i = y := fun y i hi => by
    rcases i with _ | _ | _ | i <;> first | rfl | omega
  have w1 : Weight (fin 1) := ⟨1, rfl, by norm_num, le_rfl⟩
  have ht : Flat .rgbDeep := by simp [Flat]
  have hadd := addVal_flat ht pa pb (fin 1) (1 - fin 1) ia (fun _ => 0) (fun i hi => by rw [ch x i hi, ch 1 i hi]; exact hcomb)
  refine ⟨_, pa, fun i hi => by rw [ch x i hi]; exact ⟨fx, hx0⟩, _, mixOf_flat ht (pass_of w1) (pass_of (weight_rest w1)) hadd, ?_⟩
  simp [Color.count, setterRange, channelRange, List.range_succ]

/-- The hypotheses are met: black and white in 8 bits, mixed in single precision with weight one third. -/
example (wl : World) : letI := Binary32.binary32
    ∃ r, Yields (mixOf .greyTrue (fin (1 / 3)) true) wl ⟨.greyTrue, .greyTrue, [fin 90], fin 1, 255, 0, none⟩ ⟨.greyTrue, .greyTrue, [fin 240], fin 1, 255, 0, none⟩ r ∧
      ∃ y : ℝ, r.comps[0]? = some (fin y) ∧ |y - 190| ≤ 255 / 10 ^ 6 := by
  letI := Binary32.binary32
  haveI := Binary32.binary32_int
  haveI := Binary32.binary32_square
  haveI := Binary32.binary32_fine
  have p : ∀ x : ℝ, 0 ≤ x → x ≤ 255 → Proper .greyTrue ⟨.greyTrue, .greyTrue, [fin x], fin 1, 255, 0, none⟩ := fun x h0 h1 =>
    ⟨⟨rfl, rfl, rfl, rfl, rfl⟩, fun i hi => by
      obtain rfl : i = 0 := by simpa using hi
      exact ⟨x, rfl, by simpa [setterRange, channelRange] using h0, by simpa [setterRange, channelRange] using h1⟩, ⟨1, rfl, by norm_num, le_rfl⟩⟩
  obtain ⟨r, hr, -, -, h, -⟩ := C167_mix .greyTrue (by simp [Flat]) _ _ (p 90 (by norm_num) (by norm_num)) (p 240 (by norm_num) (by norm_num)) (1 / 3) (by norm_num) (by norm_num) true wl
  obtain ⟨y, e, -, -, n⟩ := h 0 (by simp [Color.count])
  refine ⟨r, hr, y, e, ?_⟩
  simp only [chan, span] at n
  norm_num at n ⊢
  exact n
