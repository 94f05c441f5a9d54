import Verif.FineLabLines
import Verif.FineLabLinear
import Verif.Props.Fine

/-!
# 8-bit colours through LAB in single precision (C159)
-/

open Outcome Fl Prog ObjectSpec ConvSpec Hue

namespace FineLab

open LabGamut

/-- A quotient with errors in both arguments. -/
theorem quot_near {x X w W r : ℝ} (hW : 0 < W) (hw : |w - W| ≤ W * 1.2e-7) (hr : r ≤ 3e-4) (hx : |x - X| ≤ r * W) (h0 : 0 ≤ X / W) (h1 : X / W ≤ 1) :
    0 < w ∧ |x / w - X / W| ≤ r + 1.3e-7 := by
  have hw' := abs_le.mp hw
  have w0 : 0 < w := by norm_num at *; linarith
  refine ⟨w0, ?_⟩
  have hr0 : 0 ≤ r := by
    have := (abs_nonneg _).trans hx
    by_contra hh
    push Not at hh
    nlinarith
  have hX := div_mul_cancel₀ X hW.ne'
  set q := X / W
  rw [div_sub' w0.ne', abs_div, abs_of_pos w0, div_le_iff₀ w0]
  have e : x - w * q = (x - X) + q * (W - w) := by rw [← hX]; ring
  have h2 : |q * (W - w)| ≤ 1 * (W * 1.2e-7) := by
    rw [abs_mul, abs_of_nonneg h0, abs_sub_comm]
    exact mul_le_mul h1 hw (abs_nonneg _) (by norm_num)
  have h3 : |x - w * q| ≤ r * W + W * 1.2e-7 := by
    rw [e]
    refine (abs_add_le _ _).trans ?_
    linarith
  refine h3.trans ?_
  have h4 : (r + 1.3e-7) * (W * (1 - 1.2e-7)) ≤ (r + 1.3e-7) * w := mul_le_mul_of_nonneg_left (by linarith) (by positivity)
  have h5 : r * W ≤ 3e-4 * W := mul_le_mul_of_nonneg_right hr hW.le
  norm_num at *
  nlinarith

/-- The weights of the primaries are unique. -/
theorem weight_eq (p : SpacePreset) (k : Fin 3 → ℝ) (hk : (presetPrimaries p).mulVec k = presetWhite p) (j : Fin 3) : Fine.weight p j = k j := by
  have hdet := Fine.det_le p
  have hrpos : 0 < rdet (presetPrimaries p) := lt_of_lt_of_le (lt_of_lt_of_le (by norm_num) hdet.2.1) hdet.1
  unfold Fine.weight
  rw [div_eq_iff hrpos.ne', ← hk]
  simp only [Matrix.mulVec, dotProduct, Fin.sum_univ_three]
  fin_cases j <;> simp only [radj, rdet, Matrix.cons_val, Fin.zero_eta, Fin.mk_one, Fin.reduceFinMk] <;> ring

/-- How much a primary contributes to Y. -/
theorem low_y (p : SpacePreset) (hp : LabSpec.Fits p) (j : Fin 3) : 0.066 ≤ presetPrimaries p 1 j * Fine.low p j ∧ presetWhite p 1 = 1 := by
  cases p <;> simp only [LabSpec.Fits] at hp <;> fin_cases j <;>
    (simp only [Fine.low, presetPrimaries, ccMat, SpacePreset.primaries, presetWhite, SpacePreset.white, WhitePreset.literals, Matrix.of_apply, Matrix.cons_val', Matrix.cons_val, Fin.zero_eta,
      Fin.mk_one, Fin.reduceFinMk, Fin.isValue] <;> norm_num)

theorem weight_y (p : SpacePreset) (hp : LabSpec.Fits p) (j : Fin 3) : 0.066 ≤ presetPrimaries p 1 j * Fine.weight p j := by
  have hne : p ≠ .cieRGB := by rintro rfl; exact hp
  have hdet := Fine.det_le p
  have hrpos : 0 < rdet (presetPrimaries p) := lt_of_lt_of_le (lt_of_lt_of_le (by norm_num) hdet.2.1) hdet.1
  have h1 : Fine.low p j ≤ Fine.weight p j := by
    have := (Fine.weight_le p j).1
    rw [abs_of_nonneg (Fine.weight_pos p hne j)] at this
    unfold Fine.weight
    rw [le_div_iff₀ hrpos]
    exact this
  exact (low_y p hp j).1.trans (mul_le_mul_of_nonneg_left h1 (Fine.mag_le p 1 j).2.1)

section
variable [FloatModel] [IntExact] [FineError]

/-- The opacity of an 8-bit colour, as RGB_DEEP colour. -/
theorem byte_alpha (R G B A : ℕ) (sp : Option Nat) (c d : Color) (hA : A ≤ 255)
    (hc : Color.construct .rgbTrue [fin R, fin G, fin B] (fin A) sp = ok c) (hd : Leaf.rgb_true_to_rgb_deep c = ok d) : ∃ a, d.malpha = fin a ∧ 0 ≤ a ∧ a ≤ 1 := by
  rw [Color.construct_rgbTrue, ok_inj] at hc
  obtain ⟨xa, ea, -⟩ := byte_frac hA
  obtain ⟨x0, x1⟩ := Fine.clamp_range ea
  have step : ∀ (r : ℝ) (n : ℤ), |n| ≤ 2 ^ 24 → 0 ≤ r → r ≤ n → ∃ y, rnd r = fin y ∧ 0 ≤ y ∧ y ≤ n := by
    intro r n hn h0 h1
    have l1 := FloatModel.rnd_mono _ _ h0
    have l2 := FloatModel.rnd_mono _ _ h1
    rw [FloatModel.rnd_zero] at l1
    rw [IntExact.rnd_int n hn] at l2
    cases e : rnd r with
    | fin y => rw [e, fin_le] at l1 l2; exact ⟨y, rfl, l1, l2⟩
    | nan => rw [e] at l1; exact absurd l1 le_nan
    | pinf => rw [e] at l2; exact absurd l2 not_pinf_le_fin
    | ninf => rw [e] at l1; exact absurd l1 not_fin_le_ninf
  obtain ⟨y, ey, y0, y1⟩ := step (xa * 255) 255 (by norm_num) (by positivity) (by push_cast; linarith)
  obtain ⟨a, ez, a0, a1⟩ := step (y / 255) 1 (by norm_num) (by positivity) (by push_cast at *; rw [div_le_one (by norm_num)]; exact y1)
  refine ⟨a, ?_, a0, by simpa using a1⟩
  subst hc
  simp only [Leaf.rgb_true_to_rgb_deep, Color.mkRgbTrue, Conv.get3_0, Conv.get3_1, Conv.get3_2, ok_bind, Color.construct_rgbDeep, ok_inj] at hd
  subst hd
  simp only [Color.mkRgbDeep, Color.alpha, Color.scalesAlpha, if_true, ea]
  rw [lit_def, fin_mul, ey, fin_div _ _ (by norm_num), ez]

end

end FineLab

section
variable [FloatModel] [IntExact] [FineError] [StdSort]

open FineLab LabGamut LabSpec

set_option maxHeartbeats 1600000 in
/-- **C159** Every 8-bit colour survives RGB_TRUE → LAB → RGB_TRUE in single precision, exactly, in the eight preset colour spaces whose gamut fits into the LAB class, with the
gamma curve of sRGB. -/
theorem C159_bytes (p : SpacePreset) (hp : Fits p) (w : World) (ws : WhiteStore) (s q m : Nat) (st : PartStore) (next : Nat) (hs : p.create ws q m = ok (w.spaces s))
    (hq : w.whites q = p.white.create) (hg : GammaPreset.sRGB.create st next = (w.parts, ok (w.gammas m)))
    (R G B A : ℕ) (hR : R ≤ 255) (hG : G ≤ 255) (hB : B ≤ 255) (hA : A ≤ 255) (c : Color)
    (hc : Color.construct .rgbTrue [fin R, fin G, fin B] (fin A) (some s) = ok c) : Trip w c .lab .rgbTrue c := by
  have hne : p ≠ .cieRGB := by rintro rfl; exact hp
  obtain ⟨hcol, d, r, g, b, h1, hd, -, ⟨nr, ng, nb⟩, hback⟩ := byte_deep R G B A hR hG hB hA (some s) c hc
  obtain ⟨a, hal, a0, a1⟩ := byte_alpha R G B A (some s) c d hA hc h1
  have hdsp : d.space = some s := by
    rw [Color.construct_rgbTrue, ok_inj] at hc
    subst hc
    simp only [Leaf.rgb_true_to_rgb_deep, Color.mkRgbTrue, Conv.get3_0, Conv.get3_1, Conv.get3_2, ok_bind, Color.construct_rgbDeep, ok_inj] at h1
    subst h1
    rfl
  obtain ⟨s', hs', hsw, hsg, hlin⟩ := Fine.disturbed_trip p hne ws q m
  rw [hs, ok_inj] at hs'
  subst hs'
  -- the gamma curve
  have hst := fine_strict .sRGB (.inl rfl)
  obtain ⟨g', hg', hev⟩ := GammaPreset.create_eval_of .sRGB hst.1 hst.2 st next
  rw [hg] at hg' hev
  simp only [ok_inj] at hg'
  subst hg'
  obtain ⟨lr, er, lr0, lr1, tr, kr⟩ := Fine.keepsBy_sRGB R hR r hd.r0 hd.r1 nr
  obtain ⟨lg, eg, lg0, lg1, tg, kg⟩ := Fine.keepsBy_sRGB G hG g hd.g0 hd.g1 ng
  obtain ⟨lb, eb, lb0, lb1, tb, kb⟩ := Fine.keepsBy_sRGB B hB b hd.b0 hd.b1 nb
  rw [← (hev _).2] at er eg eb
  set l : Fin 3 → ℝ := ![lr, lg, lb] with hl
  have hl01 : ∀ i, 0 ≤ l i ∧ l i ≤ 1 := by
    intro i
    fin_cases i
    · exact ⟨lr0, lr1⟩
    · exact ⟨lg0, lg1⟩
    · exact ⟨lb0, lb1⟩
  obtain ⟨X, x, hT, hX, x0, -, -, -, hx, hI⟩ := hlin l hl01
  have hT' : (w.spaces s).transform.mulVec [fin lr, fin lg, fin lb] = ok [X 0, X 1, X 2] := hT
  -- the exact XYZ components
  obtain ⟨k, hk1, -, hk3⟩ := fitting_weights p hp
  set U : Fin 3 → ℝ := fun i => presetPrimaries p i 0 * k 0 * l 0 + presetPrimaries p i 1 * k 1 * l 1 + presetPrimaries p i 2 * k 2 * l 2 with hU
  have lines := hk3 l hl01 U fun i => rfl
  have hrow : ∀ i, |x i - U i| ≤ 2.38e-4 * presetWhite p i := fun i => by
    have := hx i
    rw [weight_eq p k hk1, weight_eq p k hk1, weight_eq p k hk1] at this
    exact this.trans (Fine.row_lab p hp i)
  have hrowy : |x 1 - U 1| ≤ 2.08e-4 * presetWhite p 1 := by
    have := hx 1
    rw [weight_eq p k hk1, weight_eq p k hk1, weight_eq p k hk1] at this
    rw [(low_y p hp 0).2, mul_one]
    exact this.trans (Fine.row_lab_y p hp)
  -- the white point
  have wlit : ∀ i, ∃ v, lit (presetWhite p i) = fin v ∧ |v - presetWhite p i| ≤ presetWhite p i * 1.2e-7 := fun i => by
    have hw := Fine.white_le p i
    obtain ⟨v, e, hv⟩ := (Fine.lit_appr (y := presetWhite p i) (by norm_num at *; linarith) (by norm_num at *; linarith)).near
    exact ⟨v, e, hv.trans (by rw [one_mul])⟩
  choose v ev hv using wlit
  have htri : (w.whites q).tri = ⟨fin (v 0), fin (v 1), fin (v 2)⟩ := by
    rw [hq, ← ev 0, ← ev 1, ← ev 2]
    rfl
  have wpos := white_pos p
  obtain ⟨vx, qx⟩ := quot_near (wpos 0) (hv 0) (by norm_num) (hrow 0) lines.x0 lines.x1
  obtain ⟨vy, qy⟩ := quot_near (wpos 1) (hv 1) (by norm_num) (hrow 1) lines.y0 lines.y1
  obtain ⟨vz, qz⟩ := quot_near (wpos 2) (hv 2) (by norm_num) (hrow 2) lines.z0 lines.z1
  have qy2 := (quot_near (wpos 1) (hv 1) (by norm_num) hrowy lines.y0 lines.y1).2
  have hgap := near_lines lines (div_nonneg (x0 0) vx.le) (div_nonneg (x0 1) vy.le) (div_nonneg (x0 2) vz.le) (qx.trans (by norm_num)) (qy.trans (by norm_num)) (qz.trans (by norm_num))
  have vtop : ∀ i, v i ≤ 1.09 := fun i => by
    have h1 := abs_le.mp (hv i)
    have h2 : presetWhite p i ≤ 1.0889 := by
      cases p <;> simp only [LabSpec.Fits] at hp <;> fin_cases i <;>
        (simp only [presetWhite, SpacePreset.white, WhitePreset.literals, Matrix.cons_val, Fin.zero_eta, Fin.mk_one, Fin.reduceFinMk, Fin.isValue] <;> norm_num)
    norm_num at *; linarith
  have x1 : x 0 / v 0 ≤ 1.0009 := by have := lines.x1; rw [abs_le] at qx; norm_num at *; linarith
  have z1 : x 2 / v 2 ≤ 1.0009 := by have := lines.z1; rw [abs_le] at qz; norm_num at *; linarith
  have hcoef : ∀ i j, 0 ≤ Fine.coef p i j := fun i j => le_trans (by norm_num) (Fine.coef_le p i j).1
  have hadj : ∀ i j, 0 ≤ padj (Fine.coef p) i j := by
    intro i j
    have := hcoef 0 0; have := hcoef 0 1; have := hcoef 0 2; have := hcoef 1 0; have := hcoef 1 1; have := hcoef 1 2; have := hcoef 2 0; have := hcoef 2 1; have := hcoef 2 2
    fin_cases i <;> fin_cases j <;> simp only [padj, Matrix.cons_val, Fin.zero_eta, Fin.mk_one, Fin.reduceFinMk] <;> positivity
  -- the trip through LAB, and back to linear RGB
  have main : ∃ L' A' B' : ℝ, ∃ x' : Fin 3 → ℝ, Leaf.xyz_to_lab w (obj .xyz (x 0) (x 1) (x 2) (fin a) (some s)) = ok (obj .lab L' A' B' (fin a) (some s)) ∧
      Leaf.lab_to_xyz w (obj .lab L' A' B' (fin a) (some s)) = ok (obj .xyz (x' 0) (x' 1) (x' 2) (fin a) (some s)) ∧
      ∃ Y : Fin 3 → Fl, (w.spaces s).inverse.mulVec [fin (x' 0), fin (x' 1), fin (x' 2)] = ok [Y 0, Y 1, Y 2] ∧
        ((∀ i, Near (Y i) (l i) 9.3e-5) ∨ (R = 255 ∧ G = 255 ∧ B = 255) ∧ ∀ i, Near (Y i) (l i) 2.5e-3) := by
    by_cases hyw : x 1 / v 1 ≤ 1
    · obtain ⟨L', A', B', u0, u1, u2, f1, f2, p0, p1, p2, e0, e1, e2⟩ := lab_round w s q hsw htri vx vy vz (vtop 0) (vtop 1) (vtop 2) (x0 0) (x0 1) (x0 2) a0 a1 x1 z1 0 le_rfl (by norm_num)
        (by linarith) hgap.1 hgap.2
      obtain ⟨Y, hY, hYn⟩ := hI ![u0, u1, u2] 7.1e-6 (by norm_num) (by norm_num) (by intro j; fin_cases j; exacts [p0, p1, p2])
        (by intro j; fin_cases j; exacts [e0.trans (by norm_num), e1.trans (by norm_num), e2.trans (by norm_num)])
      refine ⟨L', A', B', ![u0, u1, u2], f1, f2, Y, hY, .inl fun i => hYn i _ (by norm_num) (le_trans ?_ (Fine.trip_lab p hp i))⟩
      have := hadj i 0; have := hadj i 1; have := hadj i 2
      gcongr <;> norm_num
    · push Not at hyw
      have hyt : x 1 / v 1 ≤ 1 + 2.1e-4 := by have := lines.y1; rw [abs_le] at qy2; norm_num at *; linarith
      obtain ⟨L', A', B', u0, u1, u2, f1, f2, p0, p1, p2, e0, e1, e2⟩ := lab_round w s q hsw htri vx vy vz (vtop 0) (vtop 1) (vtop 2) (x0 0) (x0 1) (x0 2) a0 a1 x1 z1 2.1e-4 (by norm_num)
        (by norm_num) hyt hgap.1 hgap.2
      obtain ⟨Y, hY, hYn⟩ := hI ![u0, u1, u2] 2.5e-4 (by norm_num) (by norm_num) (by intro j; fin_cases j; exacts [p0, p1, p2])
        (by intro j; fin_cases j; exacts [e0.trans (by norm_num), e1.trans (by norm_num), e2.trans (by norm_num)])
      have bright : ∀ j, 0.995 < l j := by
        have hy1 : 1 - 2.0813e-4 ≤ U 1 := by
          rw [(low_y p hp 0).2, div_one, abs_le] at qy2; norm_num at *; linarith
        have hsum : presetPrimaries p 1 0 * k 0 + presetPrimaries p 1 1 * k 1 + presetPrimaries p 1 2 * k 2 = 1 := by
          have := congrFun hk1 1
          simp only [Matrix.mulVec, dotProduct, Fin.sum_univ_three] at this
          rw [this, (low_y p hp 0).2]
        have g0 := weight_y p hp 0; have g1 := weight_y p hp 1; have g2 := weight_y p hp 2
        rw [weight_eq p k hk1] at g0 g1 g2
        simp only [hU] at hy1
        have b0 := hl01 0; have b1 := hl01 1; have b2 := hl01 2
        generalize presetPrimaries p 1 0 * k 0 = m0 at *
        generalize presetPrimaries p 1 1 * k 1 = m1 at *
        generalize presetPrimaries p 1 2 * k 2 = m2 at *
        have c0 : m0 * l 0 ≤ m0 * 1 := mul_le_mul_of_nonneg_left b0.2 (le_trans (by norm_num) g0)
        have c1 : m1 * l 1 ≤ m1 * 1 := mul_le_mul_of_nonneg_left b1.2 (le_trans (by norm_num) g1)
        have c2 : m2 * l 2 ≤ m2 * 1 := mul_le_mul_of_nonneg_left b2.2 (le_trans (by norm_num) g2)
        have key : ∀ μ t : ℝ, 0.066 ≤ μ → t ≤ 1 → μ * (1 - t) ≤ 2.0813e-4 → 0.995 < t := by
          intro μ t h1 h2 h3
          have : 0.066 * (1 - t) ≤ μ * (1 - t) := mul_le_mul_of_nonneg_right h1 (by linarith)
          norm_num at *; linarith
        intro j
        fin_cases j
        · exact key m0 (l 0) g0 b0.2 (by simp only [mul_sub, mul_one] at *; linarith)
        · exact key m1 (l 1) g1 b1.2 (by simp only [mul_sub, mul_one] at *; linarith)
        · exact key m2 (l 2) g2 b2.2 (by simp only [mul_sub, mul_one] at *; linarith)
      have full : ∀ {n : ℕ} {t : ℝ}, n ≤ 255 → (n < 255 → t ≤ 0.995) → 0.995 < t → n = 255 := by
        intro n t h1 h2 h3
        by_contra hh
        exact absurd (h2 (by omega)) (not_le.mpr h3)
      refine ⟨L', A', B', ![u0, u1, u2], f1, f2, Y, hY, .inr ⟨⟨full hR tr (bright 0), full hG tg (bright 1), full hB tb (bright 2)⟩,
        fun i => hYn i _ (by norm_num) (le_trans ?_ (Fine.trip_white p hp i))⟩⟩
      have := hadj i 0; have := hadj i 1; have := hadj i 2
      gcongr <;> norm_num
  obtain ⟨L', A', B', x', f1, f2, Y, hY, hnear⟩ := main
  have hτ : ∃ τ, (∀ i, Near (Y i) (l i) τ) ∧ ∀ n, (n = R ∨ n = G ∨ n = B) → ∀ e : ℝ, e ≤ τ → e ≤ 9.3e-5 ∨ n = 255 ∧ e ≤ 2.5e-3 := by
    rcases hnear with h | ⟨⟨rfl, rfl, rfl⟩, h⟩
    · exact ⟨_, h, fun _ _ _ he => .inl he⟩
    · exact ⟨_, h, fun n hn _ he => .inr ⟨by rcases hn with h | h | h <;> exact h, he⟩⟩
  obtain ⟨τ, hYτ, hτ⟩ := hτ
  obtain ⟨yr, eyr, hyr⟩ := (hYτ 0).clamp01 lr0 lr1
  obtain ⟨yg, eyg, hyg⟩ := (hYτ 1).clamp01 lg0 lg1
  obtain ⟨yb, eyb, hyb⟩ := (hYτ 2).clamp01 lb0 lb1
  have rr := Fine.clamp_range eyr; have rg := Fine.clamp_range eyg; have rb := Fine.clamp_range eyb
  obtain ⟨r', fr, hr'⟩ := kr yr rr.1 rr.2 (hτ R (by simp) _ hyr)
  obtain ⟨g', fg, hg'⟩ := kg yg rg.1 rg.2 (hτ G (by simp) _ hyg)
  obtain ⟨b', fb, hb'⟩ := kb yb rb.1 rb.2 (hτ B (by simp) _ hyb)
  rw [← (hev _).1] at fr fg fb
  have he := rgb_eq hd
  rw [hal, hdsp] at he
  refine trip_of (s := .rgbTrue) (d := obj .lab L' A' B' (fin a) (some s)) (by decide) (by decide) (by decide) hcol ?_ ?_
  · change Leaf.rgb_true_to_rgb_deep c >>= Val.rgb_deep_to_lab w = _
    rw [h1, ok_bind]
    change Val.rgb_deep_to_xyz w d >>= Leaf.xyz_to_lab w = _
    have hfwd : Val.rgb_deep_to_xyz w d = ok (obj .xyz (x 0) (x 1) (x 2) (fin a) (some s)) := by
      rw [he]
      simp only [Val.rgb_deep_to_xyz, Leaf.inverseGamma, obj_space, World.space, ok_bind, World.gamma, hsg]
      rw [gamma_clamped _ er eg eb]
      simp only [Leaf.linear_to_xyz, obj_space, World.space, ok_bind]
      rw [show (obj .rgbDeep lr lg lb (fin a) (some s)).comps = [fin lr, fin lg, fin lb] from rfl, hT']
      simp only [ok_bind, Mat.vget, List.getElem?_cons_zero, List.getElem?_cons_succ, obj_alpha _ _ _ _ _ _ (rfl : Color.scalesAlpha .rgbDeep = false), Color.construct_xyz]
      simp only [Color.mkXyz, hX, obj, Color.maxOf, Color.minOf]
    rw [hfwd, ok_bind, f1]
  · change (Leaf.lab_to_xyz w _ >>= fun x => Leaf.xyz_to_rgb_deep w x >>= Leaf.rgb_deep_to_rgb_true) = _
    rw [f2, ok_bind, back_clamped w s m hsg _ hY eyr eyg eyb fr fg fb, ok_bind]
    have := hback r' g' b' hr' hg' hb'
    rw [← hdsp, ← hal, obj_rgb hd]
    exact this

/-- Case: a world with the sRGB colour space, in binary32. -/
example : letI := Binary32.binary32
    ∃ w : World, ∃ ws q m st next, SpacePreset.sRGB.create ws q m = ok (w.spaces 0) ∧ w.whites q = SpacePreset.sRGB.white.create ∧
      GammaPreset.sRGB.create st next = (w.parts, ok (w.gammas m)) ∧
      Trip w (Color.mkRgbTrue (fin (3 : ℕ)) (fin (200 : ℕ)) (fin (11 : ℕ)) (fin (127 : ℕ)) (some 0)) .lab .rgbTrue
        (Color.mkRgbTrue (fin (3 : ℕ)) (fin (200 : ℕ)) (fin (11 : ℕ)) (fin (127 : ℕ)) (some 0)) := by
  letI := Binary32.binary32
  letI := Binary32.binary32_int
  letI := Binary32.binary32_fine
  obtain ⟨s, hs, -⟩ := Fine.linear_trip .sRGB (by decide) (fun _ => SpacePreset.sRGB.white.create) 0 0
  have hst := fine_strict .sRGB (.inl rfl)
  obtain ⟨g, hg, -⟩ := GammaPreset.create_eval_of .sRGB hst.1 hst.2 (fun _ => ⟨none, 1⟩) 0
  refine ⟨⟨(GammaPreset.sRGB.create (fun _ => ⟨none, 1⟩) 0).1, fun _ => g, fun _ => SpacePreset.sRGB.white.create, fun _ => s⟩, _, 0, 0, fun _ => ⟨none, 1⟩, 0, hs, rfl, Prod.ext rfl hg, ?_⟩
  exact C159_bytes .sRGB trivial _ _ 0 0 0 _ 0 hs rfl (Prod.ext rfl hg) 3 200 11 127 (by norm_num) (by norm_num) (by norm_num) (by norm_num) _
    (Color.construct_rgbTrue _ _ _ _ _)

end
