import Verif.NearLemmas
import Verif.BlendLemmas

/-!
# Rounding errors of combined pixels

`Rel x r A e t`: the float `x` is a number that differs from `r` by at most `e` times the covered area `A`, up to `t`; nothing is covered exactly.
-/

open Outcome Fl Prog ObjectSpec ConvSpec Hue

namespace Fl

/-- `x` is a number at a distance of at most `e * A + t` from `r`, 0 if `A = 0`. -/
structure Rel (x : Fl) (r A e t : ℝ) : Prop where
  ex : ∃ y, x = fin y ∧ |y - r| ≤ e * A + t ∧ (A = 0 → y = 0)
  le : |r| ≤ A

theorem Rel.nonneg {x : Fl} {r A e t : ℝ} (h : Rel x r A e t) : 0 ≤ A := (abs_nonneg _).trans h.le

theorem Rel.weaken {x : Fl} {r A e t e' t' : ℝ} (h : Rel x r A e t) (he : e ≤ e') (ht : t ≤ t') : Rel x r A e' t' := by
  obtain ⟨y, h1, h2, h3⟩ := h.ex
  refine ⟨⟨y, h1, h2.trans ?_, h3⟩, h.le⟩
  have := mul_le_mul_of_nonneg_right he h.nonneg
  linarith

variable [FloatModel]

theorem rel_zero {A e t : ℝ} (hA : 0 ≤ A) (he : 0 ≤ e) (ht : 0 ≤ t) : Rel 0 0 A e t := by
  refine ⟨⟨0, by simp, ?_, fun _ => rfl⟩, by simpa using hA⟩
  simp only [sub_self, abs_zero]; positivity

variable [SmallError]

/-- Rounding. -/
theorem rel_rnd {s r A e t : ℝ} (h : |s - r| ≤ e * A + t) (hz : A = 0 → s = 0) (hr : |r| ≤ A) (hA : A ≤ 4) (he : e ≤ 1 / 100) (ht0 : 0 ≤ t) (ht : t ≤ 1) :
    Rel (rnd s) r A (e + 1.01 / 2 ^ 20) (1.01 * t + 1 / 2 ^ 100) := by
  have hA0 : 0 ≤ A := (abs_nonneg _).trans hr
  have hs : |s| ≤ 1.01 * A + t := by
    have h1 := abs_add_le (s - r) r
    rw [sub_add_cancel] at h1
    have h2 := mul_le_mul_of_nonneg_right he hA0
    linarith
  have hs' : |s| ≤ 2 ^ 100 := by
    have : (10 : ℝ) ≤ 2 ^ 100 := by norm_num
    linarith
  obtain ⟨y, h1, h2⟩ := SmallError.rnd_near s hs'
  refine ⟨⟨y, h1, ?_, ?_⟩, hr⟩
  · have h3 := abs_sub_le y s r
    have h4 : |s| / 2 ^ 20 ≤ (1.01 * A + t) / 2 ^ 20 := by gcongr
    have h5 : (1.01 * A + t) / 2 ^ 20 ≤ 1.01 / 2 ^ 20 * A + t * 0.01 := by
      have : t / 2 ^ 20 ≤ t * 0.01 := by rw [div_eq_mul_inv]; gcongr; norm_num
      rw [add_div]; linarith [show 1.01 * A / 2 ^ 20 = 1.01 / 2 ^ 20 * A by ring]
    linarith
  · intro h0
    rw [hz h0, FloatModel.rnd_zero] at h1
    exact (Fl.fin.inj h1).symm

theorem Rel.add {x y : Fl} {a b A B e t s : ℝ} (hx : Rel x a A e t) (hy : Rel y b B e s) (hAB : A + B ≤ 4) (he : e ≤ 1 / 100) (ht : 0 ≤ t) (hs : 0 ≤ s)
    (hts : t + s ≤ 1) : Rel (x + y) (a + b) (A + B) (e + 1.01 / 2 ^ 20) (1.01 * (t + s) + 1 / 2 ^ 100) := by
  have hA := hx.nonneg; have hB := hy.nonneg
  obtain ⟨u, rfl, hu, zu⟩ := hx.ex
  obtain ⟨v, rfl, hv, zv⟩ := hy.ex
  rw [fin_add]
  refine rel_rnd ?_ ?_ ((abs_add_le _ _).trans (add_le_add hx.le hy.le)) hAB he (by linarith) hts
  · rw [show u + v - (a + b) = (u - a) + (v - b) by ring]
    refine (abs_add_le _ _).trans ((add_le_add hu hv).trans (le_of_eq (by ring)))
  · intro h
    rw [zu (by linarith), zv (by linarith), add_zero]

/-- An area times a colour value. -/
theorem Rel.mul {x y : Fl} {a v e t ε : ℝ} (hx : Rel x a a e t) (hy : Near y v ε) (ha : a ≤ 1) (hv0 : 0 ≤ v) (hv : v ≤ 1) (he0 : 0 ≤ e) (he : e ≤ 1 / 1000)
    (hε : ε ≤ 1 / 1000) (ht : 0 ≤ t) (ht1 : t ≤ 1 / 10) : Rel (x * y) (a * v) a (1.001 * e + ε + 1.01 / 2 ^ 20) (1.02 * t + 1 / 2 ^ 100) := by
  have ha0 := hx.nonneg
  have hε0 := hy.nonneg
  obtain ⟨u, rfl, hu, zu⟩ := hx.ex
  obtain ⟨w, rfl, hw⟩ := hy
  rw [fin_mul]
  have : Rel (rnd (u * w)) (a * v) a (1.001 * e + ε + 1.01 / 2 ^ 20) (1.01 * (1.001 * t) + 1 / 2 ^ 100) := by
    refine rel_rnd ?_ ?_ ?_ (by linarith) (by linarith) (by positivity) (by linarith)
    · rw [show u * w - a * v = (u - a) * w + a * (w - v) by ring]
      have hw1 : |w| ≤ 1.001 := by
        have := abs_add_le (w - v) v
        rw [sub_add_cancel, abs_of_nonneg hv0] at this
        linarith
      refine (abs_add_le _ _).trans ?_
      rw [abs_mul, abs_mul, abs_of_nonneg ha0]
      have h1 : |u - a| * |w| ≤ (e * a + t) * 1.001 := by gcongr
      have h2 : a * |w - v| ≤ a * ε := by gcongr
      linarith
    · intro h; rw [zu h, zero_mul]
    · rw [abs_of_nonneg (by positivity)]; nlinarith
  exact this.weaken (le_refl _) (by linarith)

/-- Outside of the other colour. -/
theorem rel_outside {sa da : ℝ} (s0 : 0 ≤ sa) (s1 : sa ≤ 1) (d0 : 0 ≤ da) (d1 : da ≤ 1) :
    Rel (fin sa * (1 - fin da)) (sa * (1 - da)) (sa * (1 - da)) (2.1 / 2 ^ 20) (3.1 / 2 ^ 100) := by
  have hd : |1 - da| = 1 - da := abs_of_nonneg (by linarith)
  obtain ⟨y, h1, h2⟩ := SmallError.rnd_near (1 - da) (by rw [hd]; linarith [show (10 : ℝ) ≤ 2 ^ 100 by norm_num])
  rw [hd] at h2
  have hz : sa * (1 - da) = 0 → sa * y = 0 := by
    intro h
    rcases mul_eq_zero.mp h with h | h
    · rw [h, zero_mul]
    · rw [h, FloatModel.rnd_zero] at h1
      rw [← Fl.fin.inj h1, mul_zero]
  rw [one_def, fin_sub, h1, fin_mul]
  have hp : 0 ≤ sa * (1 - da) := mul_nonneg s0 (by linarith)
  refine (rel_rnd (e := 1 / 2 ^ 20) (t := 1 / 2 ^ 100) ?_ hz (le_of_eq (abs_of_nonneg hp)) (by nlinarith) (by norm_num) (by norm_num) (by norm_num)).weaken
    (by norm_num) (by norm_num)
  rw [← mul_sub, abs_mul, abs_of_nonneg s0]
  calc sa * |y - (1 - da)| ≤ sa * ((1 - da) / 2 ^ 20 + 1 / 2 ^ 100) := by gcongr
    _ ≤ _ := by
      have : sa * (1 / 2 ^ 100) ≤ 1 * (1 / 2 ^ 100 : ℝ) := by gcongr
      linarith

/-- Inside of both. -/
theorem rel_inside {sa da : ℝ} (s0 : 0 ≤ sa) (s1 : sa ≤ 1) (d0 : 0 ≤ da) (d1 : da ≤ 1) :
    Rel (fin sa * fin da) (sa * da) (sa * da) (2.1 / 2 ^ 20) (3.1 / 2 ^ 100) := by
  rw [fin_mul]
  have hp : 0 ≤ sa * da := mul_nonneg s0 d0
  exact (rel_rnd (e := 0) (t := 0) (by simp) id (le_of_eq (abs_of_nonneg hp)) (by nlinarith) (by norm_num) (by norm_num) (by norm_num)).weaken
    (by norm_num) (by norm_num)

end Fl

namespace Blend
variable [FloatModel] [SmallError]

/-- One region of a component. -/
theorem rel_region {x : Fl} {a v ε : ℝ} (hx : Rel x a a (2.1 / 2 ^ 20) (3.1 / 2 ^ 100)) (ha : a ≤ 1) (b : Bool) {y : Fl} (hy : Near y v ε) (h0 : 0 ≤ v) (h1 : v ≤ 1)
    (hε : ε ≤ 1 / 1000) : Rel (x * (if b then y else 0)) (a * (weight b * v)) (a * weight b) (3.2 / 2 ^ 20 + ε) (4.3 / 2 ^ 100) := by
  have hε0 := hy.nonneg
  cases b
  · obtain ⟨u, rfl, -, -⟩ := hx.ex
    simp only [Bool.false_eq_true, if_false, weight, mul_zero, zero_mul]
    rw [zero_def, fin_mul, mul_zero, FloatModel.rnd_zero, ← zero_def]
    exact rel_zero (le_refl _) (by positivity) (by positivity)
  · simp only [if_true, weight, mul_one, one_mul]
    exact (hx.mul hy ha h0 h1 (by norm_num) (by norm_num) hε (by norm_num) (by norm_num)).weaken (by norm_num; linarith) (by norm_num)

/-- The sum of the regions. -/
theorem rel_sum {x y z : Fl} {a b c A B C ε : ℝ} (hx : Rel x a A (3.2 / 2 ^ 20 + ε) (4.3 / 2 ^ 100)) (hy : Rel y b B (3.2 / 2 ^ 20 + ε) (4.3 / 2 ^ 100))
    (hz : Rel z c C (3.2 / 2 ^ 20 + ε) (4.3 / 2 ^ 100)) (h : A + B + C ≤ 4) (hε0 : 0 ≤ ε) (hε : ε ≤ 1 / 1000) :
    Rel (x + y + z) (a + b + c) (A + B + C) (5.3 / 2 ^ 20 + ε) (16 / 2 ^ 100) := by
  have hC := hz.nonneg
  have h1 := hx.add hy (by linarith) (by norm_num; linarith) (by norm_num) (by norm_num) (by norm_num)
  have h2 := h1.add (hz.weaken (e' := 3.2 / 2 ^ 20 + ε + 1.01 / 2 ^ 20) (by norm_num) (le_refl _)) h (by norm_num; linarith) (by norm_num) (by norm_num) (by norm_num)
  exact h2.weaken (by norm_num; linarith) (by norm_num)

/-- Division by the resulting alpha. -/
theorem rel_quot {x y : Fl} {r α ε : ℝ} (hx : Rel x r α (5.3 / 2 ^ 20 + ε) (16 / 2 ^ 100)) (hy : Rel y α α (5.3 / 2 ^ 20) (16 / 2 ^ 100)) (hε0 : 0 ≤ ε) (hε : ε ≤ 1 / 1000)
    (hα : 1 / 2 ^ 60 ≤ α) (h0 : 0 ≤ r) (h1 : α ≤ 1) : ¬ feq y 0 ∧ Near (Color.clamp x 1 0 / y) (r / α) (14 / 2 ^ 20 + 1.01 * ε) := by
  have hαp : 0 < α := lt_of_lt_of_le (by norm_num) hα
  have hrα : r ≤ α := (le_abs_self r).trans hx.le
  have hc : Near (Color.clamp x 1 0) r ((5.3 / 2 ^ 20 + ε) * α + 16 / 2 ^ 100) := by
    obtain ⟨u, h, h', -⟩ := hx.ex
    exact Near.clamp01 ⟨u, h, h'⟩ h0 (hrα.trans h1)
  obtain ⟨u, hu, hu'⟩ := hc
  obtain ⟨w, rfl, hw, -⟩ := hy.ex
  have hτ : (16 : ℝ) / 2 ^ 100 ≤ 1 / 2 ^ 36 * α := by
    calc (16 : ℝ) / 2 ^ 100 = 1 / 2 ^ 36 * (1 / 2 ^ 60) := by norm_num
      _ ≤ _ := by gcongr
  have hu2 : |u - r| ≤ (5.31 / 2 ^ 20 + ε) * α := by
    refine hu'.trans ?_
    have : (5.3 / 2 ^ 20 : ℝ) + 1 / 2 ^ 36 ≤ 5.31 / 2 ^ 20 := by norm_num
    nlinarith
  have hw2 : |w - α| ≤ 5.31 / 2 ^ 20 * α := by
    refine hw.trans ?_
    have : (5.3 / 2 ^ 20 : ℝ) + 1 / 2 ^ 36 ≤ 5.31 / 2 ^ 20 := by norm_num
    nlinarith
  have hw3 : 0.999 * α ≤ w := by
    have := (abs_le.mp hw2).1
    have : (5.31 / 2 ^ 20 : ℝ) ≤ 0.001 := by norm_num
    nlinarith
  have hwp : 0 < w := lt_of_lt_of_le (by positivity) hw3
  refine ⟨by simp [zero_def, hwp.ne'], ?_⟩
  rw [hu, fin_div _ _ hwp.ne']
  have key : |u / w - r / α| ≤ 1.002 * (10.62 / 2 ^ 20 + ε) := by
    have e1 : u / w - r / α = ((u - r) + (r / α) * (α - w)) / w := by field_simp; ring
    have hq0 : 0 ≤ r / α := by positivity
    have hq1 : r / α ≤ 1 := (div_le_one hαp).mpr hrα
    rw [e1, abs_div, abs_of_pos hwp, div_le_iff₀ hwp]
    have h2 : |(u - r) + (r / α) * (α - w)| ≤ (10.62 / 2 ^ 20 + ε) * α := by
      refine (abs_add_le _ _).trans ?_
      rw [abs_mul, abs_of_nonneg hq0, abs_sub_comm α w]
      have : r / α * |w - α| ≤ 1 * (5.31 / 2 ^ 20 * α) := by gcongr
      have e2 : (10.62 / 2 ^ 20 + ε) * α = (5.31 / 2 ^ 20 + ε) * α + 5.31 / 2 ^ 20 * α := by ring
      linarith
    refine h2.trans ?_
    have hE : 0 ≤ 10.62 / 2 ^ 20 + ε := by positivity
    calc (10.62 / 2 ^ 20 + ε) * α ≤ (10.62 / 2 ^ 20 + ε) * (1.002 * w) := by gcongr; linarith
      _ = _ := by ring
  have hq : |r / α| ≤ 1 := by
    rw [abs_of_nonneg (by positivity)]; exact (div_le_one hαp).mpr hrα
  have h3 : |u / w| ≤ 1.01 := by
    have := abs_add_le (u / w - r / α) (r / α)
    rw [sub_add_cancel] at this
    have : (1.002 * (10.62 / 2 ^ 20 + 1 / 1000) : ℝ) ≤ 0.01 := by norm_num
    nlinarith
  obtain ⟨y, h4, h5⟩ := SmallError.rnd_near (u / w) (h3.trans (by norm_num))
  refine ⟨y, h4, ?_⟩
  have h6 := abs_sub_le y (u / w) (r / α)
  have h7 : |u / w| / 2 ^ 20 ≤ 1.01 / 2 ^ 20 := by gcongr
  have : (1.01 / 2 ^ 20 + 1 / 2 ^ 100 + 1.002 * (10.62 / 2 ^ 20) : ℝ) ≤ 14 / 2 ^ 20 := by norm_num
  linarith

omit [FloatModel] [SmallError] in
theorem alphaOf_range (us ud ub : Bool) {sa da : ℝ} (s0 : 0 ≤ sa) (s1 : sa ≤ 1) (d0 : 0 ≤ da) (d1 : da ≤ 1) : 0 ≤ alphaOf us ud ub sa da ∧ alphaOf us ud ub sa da ≤ 1 := by
  have p1 := mul_nonneg s0 d0
  have p2 := mul_nonneg (sub_nonneg.mpr s1) (sub_nonneg.mpr d1)
  have p3 := mul_nonneg s0 (sub_nonneg.mpr d1)
  have p4 := mul_nonneg d0 (sub_nonneg.mpr s1)
  cases us <;> cases ud <;> cases ub <;> simp only [alphaOf, weight, if_true, if_false, Bool.false_eq_true] <;> constructor <;> nlinarith

/-- `general_porter_duff` on two pixels: `v0 v1 v2` are the exact values of the both region. -/
theorem gpd_near {s d : Color} {s0 s1 s2 sa d0 d1 d2 da v0 v1 v2 ε : ℝ} (hs : IsColor .rgbDeep s) (cs : s.comps = [fin s0, fin s1, fin s2]) (as : s.malpha = fin sa)
    (hd : IsColor .rgbDeep d) (cd : d.comps = [fin d0, fin d1, fin d2]) (ad : d.malpha = fin da)
    (us ud ub : Bool) (f : Nat → Fl → Fl → Fl) (g : Nat → Fl → Fl → Fl) (hf : f = fun i a b => if ub then g i a b else 0)
    (h0 : Near (g 0 (fin s0) (fin d0)) v0 ε) (h1 : Near (g 1 (fin s1) (fin d1)) v1 ε) (h2 : Near (g 2 (fin s2) (fin d2)) v2 ε)
    (hε : ε ≤ 1 / 1000) (sa0 : 0 ≤ sa) (sa1 : sa ≤ 1) (da0 : 0 ≤ da) (da1 : da ≤ 1)
    (rs : (0 ≤ s0 ∧ s0 ≤ 1) ∧ (0 ≤ s1 ∧ s1 ≤ 1) ∧ (0 ≤ s2 ∧ s2 ≤ 1)) (rd : (0 ≤ d0 ∧ d0 ≤ 1) ∧ (0 ≤ d1 ∧ d1 ≤ 1) ∧ (0 ≤ d2 ∧ d2 ≤ 1))
    (rv : (0 ≤ v0 ∧ v0 ≤ 1) ∧ (0 ≤ v1 ∧ v1 ≤ 1) ∧ (0 ≤ v2 ∧ v2 ≤ 1))
    (hα : alphaOf us ud ub sa da = 0 ∨ 1 / 2 ^ 60 ≤ alphaOf us ud ub sa da) :
    ∃ r0 r1 r2 ra, gpdVal s d us ud ub f = ok (obj .rgbDeep r0 r1 r2 (fin ra) s.space) ∧
      |ra - alphaOf us ud ub sa da| ≤ 6 / 2 ^ 20 * alphaOf us ud ub sa da ∧
      |r0 - quot (alphaOf us ud ub sa da) (comb us ud sa da s0 d0 (weight ub * v0))| ≤ 14 / 2 ^ 20 + 1.01 * ε ∧
      |r1 - quot (alphaOf us ud ub sa da) (comb us ud sa da s1 d1 (weight ub * v1))| ≤ 14 / 2 ^ 20 + 1.01 * ε ∧
      |r2 - quot (alphaOf us ud ub sa da) (comb us ud sa da s2 d2 (weight ub * v2))| ≤ 14 / 2 ^ 20 + 1.01 * ε ∧
      (alphaOf us ud ub sa da = 0 → r0 = 0 ∧ r1 = 0 ∧ r2 = 0 ∧ ra = 0) := by
  obtain ⟨x, y, z, es⟩ := rgb_form hs
  obtain ⟨x', y', z', ed⟩ := rgb_form hd
  rw [es] at cs
  rw [ed] at cd
  simp only [List.cons.injEq, and_true] at cs cd
  obtain ⟨rfl, rfl, rfl⟩ := cs
  obtain ⟨rfl, rfl, rfl⟩ := cd
  rw [as] at es
  rw [ad] at ed
  generalize s.space = sp at *
  subst es
  rw [ed, gpd_result]
  have hε0 := h0.nonneg
  have p1 := mul_nonneg sa0 da0
  have p2 := mul_nonneg (sub_nonneg.mpr sa1) (sub_nonneg.mpr da1)
  have p3 := mul_nonneg sa0 (sub_nonneg.mpr da1)
  have p4 := mul_nonneg da0 (sub_nonneg.mpr sa1)
  have ar := alphaOf_range us ud ub sa0 sa1 da0 da1
  have A1 := rel_outside sa0 sa1 da0 da1
  have A2 := rel_outside da0 da1 sa0 sa1
  have A3 := rel_inside sa0 sa1 da0 da1
  have chan : ∀ (i : Nat) (a b v : ℝ), 0 ≤ a → a ≤ 1 → 0 ≤ b → b ≤ 1 → 0 ≤ v → v ≤ 1 → Near (g i (fin a) (fin b)) v ε →
      Rel (fin sa * (1 - fin da) * (if us then fin a else 0) + fin da * (1 - fin sa) * (if ud then fin b else 0) + fin sa * fin da * f i (fin a) (fin b))
        (comb us ud sa da a b (weight ub * v)) (alphaOf us ud ub sa da) (5.3 / 2 ^ 20 + ε) (16 / 2 ^ 100) := by
    intro i a b v a0 a1 b0 b1 v0 v1 hv
    rw [hf]
    exact rel_sum (rel_region A1 (by nlinarith) us ((near_fin a).weaken hε0) a0 a1 hε) (rel_region A2 (by nlinarith) ud ((near_fin b).weaken hε0) b0 b1 hε)
      (rel_region A3 (by nlinarith) ub hv v0 v1 hε) (by linarith [ar.2, show alphaOf us ud ub sa da = sa * (1 - da) * weight us + da * (1 - sa) * weight ud + sa * da * weight ub from rfl]) hε0 hε
  have c0 := chan 0 s0 d0 v0 rs.1.1 rs.1.2 rd.1.1 rd.1.2 rv.1.1 rv.1.2 h0
  have c1 := chan 1 s1 d1 v1 rs.2.1.1 rs.2.1.2 rd.2.1.1 rd.2.1.2 rv.2.1.1 rv.2.1.2 h1
  have c2 := chan 2 s2 d2 v2 rs.2.2.1 rs.2.2.2 rd.2.2.1 rd.2.2.2 rv.2.2.1 rv.2.2.2 h2
  have ca : Rel (fin sa * (1 - fin da) * (if us then 1 else 0) + fin da * (1 - fin sa) * (if ud then 1 else 0) + fin sa * fin da * (if ub then 1 else 0))
      (alphaOf us ud ub sa da) (alphaOf us ud ub sa da) (5.3 / 2 ^ 20) (16 / 2 ^ 100) := by
    have n1 : Near (1 : Fl) 1 0 := by rw [one_def]; exact near_fin 1
    have := rel_sum (rel_region A1 (by nlinarith) us n1 (by norm_num) (by norm_num) (by norm_num)) (rel_region A2 (by nlinarith) ud n1 (by norm_num) (by norm_num) (by norm_num))
      (rel_region A3 (by nlinarith) ub n1 (by norm_num) (by norm_num) (by norm_num))
      (by linarith [ar.2, show alphaOf us ud ub sa da = sa * (1 - da) * weight us + da * (1 - sa) * weight ud + sa * da * weight ub from rfl]) (le_refl 0) (by norm_num)
    simpa only [mul_one, add_zero, alphaOf] using this
  unfold result
  generalize hX : fin sa * (1 - fin da) * (if us then fin s0 else 0) + fin da * (1 - fin sa) * (if ud then fin d0 else 0) + fin sa * fin da * f 0 (fin s0) (fin d0) = X at *
  generalize hY : fin sa * (1 - fin da) * (if us then fin s1 else 0) + fin da * (1 - fin sa) * (if ud then fin d1 else 0) + fin sa * fin da * f 1 (fin s1) (fin d1) = Y at *
  generalize hZ : fin sa * (1 - fin da) * (if us then fin s2 else 0) + fin da * (1 - fin sa) * (if ud then fin d2 else 0) + fin sa * fin da * f 2 (fin s2) (fin d2) = Z at *
  generalize hW : fin sa * (1 - fin da) * (if us then 1 else 0) + fin da * (1 - fin sa) * (if ud then 1 else 0) + fin sa * fin da * (if ub then 1 else 0) = W at *
  generalize hal : alphaOf us ud ub sa da = α at *
  have cnn : ∀ (a b v : ℝ), 0 ≤ a → 0 ≤ b → 0 ≤ v → 0 ≤ comb us ud sa da a b (weight ub * v) := by
    intro a b v a0 b0 v0
    have w0 : ∀ b, 0 ≤ weight b := by intro b; cases b <;> simp [weight]
    have := w0 us; have := w0 ud; have := w0 ub
    unfold comb; positivity
  rcases hα with hα | hα
  · have zero : ∀ {x : Fl} {r e t : ℝ}, Rel x r α e t → x = fin 0 ∧ r = 0 := by
      intro x r e t h
      obtain ⟨y, e1, -, e2⟩ := h.ex
      refine ⟨by rw [e1, e2 hα], ?_⟩
      have := h.le
      rw [hα] at this
      exact abs_nonpos_iff.mp this
    obtain ⟨rfl, e0⟩ := zero c0
    obtain ⟨rfl, e1⟩ := zero c1
    obtain ⟨rfl, e2⟩ := zero c2
    obtain ⟨rfl, -⟩ := zero ca
    rw [e0, e1, e2]
    refine ⟨0, 0, 0, 0, ?_, by simp [hα], ?_, ?_, ?_, fun _ => ⟨rfl, rfl, rfl, rfl⟩⟩
    · simp [Color.alphaDivide, Color.clamp, obj, fmin_fin, fmax_fin, Color.maxOf, Color.minOf]
    all_goals simp only [quot, hα, if_true, sub_self, abs_zero]; positivity
  · have hαp : 0 < α := lt_of_lt_of_le (by norm_num) hα
    obtain ⟨hne, q0⟩ := rel_quot c0 ca hε0 hε hα (cnn _ _ _ rs.1.1 rd.1.1 rv.1.1) ar.2
    obtain ⟨-, q1⟩ := rel_quot c1 ca hε0 hε hα (cnn _ _ _ rs.2.1.1 rd.2.1.1 rv.2.1.1) ar.2
    obtain ⟨-, q2⟩ := rel_quot c2 ca hε0 hε hα (cnn _ _ _ rs.2.2.1 rd.2.2.1 rv.2.2.1) ar.2
    obtain ⟨r0, e0, n0⟩ := q0
    obtain ⟨r1, e1, n1⟩ := q1
    obtain ⟨r2, e2, n2⟩ := q2
    obtain ⟨ra, ea, na, -⟩ := ca.ex
    refine ⟨r0, r1, r2, ra, ?_, ?_, ?_, ?_, ?_, fun h => absurd h hαp.ne'⟩
    · unfold Color.alphaDivide
      rw [if_neg hne]
      simp only [List.map_cons, List.map_nil, e0, e1, e2]
      rw [ea]
      rfl
    · refine na.trans ?_
      have hτ : (16 : ℝ) / 2 ^ 100 ≤ 1 / 2 ^ 36 * α := by
        calc (16 : ℝ) / 2 ^ 100 = 1 / 2 ^ 36 * (1 / 2 ^ 60) := by norm_num
          _ ≤ _ := by gcongr
      have : (5.3 / 2 ^ 20 : ℝ) + 1 / 2 ^ 36 ≤ 6 / 2 ^ 20 := by norm_num
      nlinarith
    all_goals simp only [quot, hαp.ne', if_false]; assumption

end Blend
