import Verif.WeightedNear
import Verif.Props.SingleDistance

/-!
# The weighted Euclidean distance in single precision (C170)

The theorems hold for every arithmetic with the precision of `float`, the last ones are about `Binary32.binary32`.
-/

open Outcome Fl Prog ObjectSpec ConvSpec BlendSpec DistSpec CombineSpec

/-- The published weighted distance of two RGB colours with components from 0 to 1: weights that depend on the mean red, components from 0 to 255, and the result divided by 255. -/
noncomputable def DistSpec.redmean (x y z x' y' z' : ℝ) : ℝ :=
  let r := (255 * x + 255 * x') / 2
  Real.sqrt ((2 + r / 256) * (255 * x - 255 * x') ^ 2 + 4 * (255 * y - 255 * y') ^ 2 + (2 + (255 - r) / 256) * (255 * z - 255 * z') ^ 2) / 255

section
variable [FloatModel] [FineError] [SquareNear]

/-- C170: the weighted distance of colours of all types is the published one of their RGB components up to 1.3 parts in a million. -/
theorem C170_weighted (w : World) (a b : Color) (ha : Valid w .rgbDeep a) (hb : Valid w .rgbDeep b) (x y z x' y' z' : ℝ) (va : View w a .rgbDeep x y z) (vb : View w b .rgbDeep x' y' z') :
    ∃ d : ℝ, Measures Distance.euclidean_distance_weighted w a b (fin d) ∧ 0 ≤ d ∧ |d - redmean x y z x' y' z'| ≤ redmean x y z x' y' z' * (13 / 10 ^ 7) + 1 / 10 ^ 9 := by
  obtain ⟨u, v, t, va', hx, hy, hz⟩ := view_of_valid (by simp) rfl ha
  obtain ⟨rfl, rfl, rfl⟩ := view_unique (by simp) ha.def_ ha.col va' va
  obtain ⟨u', v', t', vb', hx', hy', hz'⟩ := view_of_valid (by simp) rfl hb
  obtain ⟨rfl, rfl, rfl⟩ := view_unique (by simp) hb.def_ hb.col vb' vb
  obtain ⟨a', ea, ha'⟩ := Distance.view_val (by simp) ha.def_ ha.col va
  obtain ⟨b', eb, hb'⟩ := Distance.view_val (by simp) hb.def_ hb.col vb
  obtain ⟨d, e, d0, n⟩ := Distance.weighted_near ha' hb' hx hy hz hx' hy' hz'
  exact ⟨d, (Distance.between_measures ha.def_ hb.def_ (by simp) ha.col hb.col ea eb (f := Distance.weighted) e).1, d0, n⟩

/-- C170: pairs of colours are ordered as the published distance orders them, unless the two distances agree to within three parts in a million. -/
theorem C170_order (w : World) (a b c e : Color) (ha : Valid w .rgbDeep a) (hb : Valid w .rgbDeep b) (hc : Valid w .rgbDeep c) (he : Valid w .rgbDeep e) (x y z x' y' z' p q r p' q' r' : ℝ)
    (va : View w a .rgbDeep x y z) (vb : View w b .rgbDeep x' y' z') (vc : View w c .rgbDeep p q r) (ve : View w e .rgbDeep p' q' r')
    (h : redmean x y z x' y' z' * (1 + 3 / 10 ^ 6) + 1 / 10 ^ 8 ≤ redmean p q r p' q' r') :
    ∃ d f : ℝ, Measures Distance.euclidean_distance_weighted w a b (fin d) ∧ Measures Distance.euclidean_distance_weighted w c e (fin f) ∧ d < f := by
  obtain ⟨d, hd, -, n⟩ := C170_weighted w a b ha hb _ _ _ _ _ _ va vb
  obtain ⟨f, hf, -, m⟩ := C170_weighted w c e hc he _ _ _ _ _ _ vc ve
  refine ⟨d, f, hd, hf, ?_⟩
  have h0 : 0 ≤ redmean x y z x' y' z' := div_nonneg (Real.sqrt_nonneg _) (by norm_num)
  rw [abs_le] at n m
  norm_num at *
  linarith

end

/-- C170: in binary32 the weighted distance is symmetric to the last bit, and colours with the same RGB components have the distance zero. -/
theorem C170_symmetric (w : World) (a b : Color) : letI := Binary32.binary32
    ∀ (_ : Valid w .rgbDeep a) (_ : Valid w .rgbDeep b),
    ∃ d : ℝ, Measures Distance.euclidean_distance_weighted w a b (fin d) ∧ Measures Distance.euclidean_distance_weighted w b a (fin d) ∧ (SameView w .rgbDeep a b → d = 0) := by
  letI := Binary32.binary32
  haveI := Binary32.binary32_fine
  haveI := Binary32.binary32_square
  intro ha hb
  obtain ⟨x, y, z, va, hx, hy, hz⟩ := view_of_valid (by simp) rfl ha
  obtain ⟨x', y', z', vb, hx', hy', hz'⟩ := view_of_valid (by simp) rfl hb
  obtain ⟨a', ea, ha'⟩ := Distance.view_val (by simp) ha.def_ ha.col va
  obtain ⟨b', eb, hb'⟩ := Distance.view_val (by simp) hb.def_ hb.col vb
  have lim : ∀ {c : ℝ} {i : ℕ}, (channelRange .rgbDeep i).1 ≤ c ∧ c ≤ (channelRange .rgbDeep i).2 → 0 ≤ c ∧ c ≤ 1 := fun h => by simpa [channelRange] using h
  have h2 : (2 : Fl) = fin 2 := by simp
  have h255 : (255 : Fl) = fin 255 := by simp
  have comm : ∀ u v : ℝ, 0 ≤ u ∧ u ≤ 1 → 0 ≤ v ∧ v ≤ 1 → powf ((fin u - fin v) * 255) 2 = powf ((fin v - fin u) * 255) 2 := by
    rintro u v ⟨u0, u1⟩ ⟨v0, v1⟩
    have h1 : |u - v| ≤ 1 := by rw [abs_le]; constructor <;> linarith
    obtain ⟨t, e, n⟩ := Binary32.round_fine (r := u - v) (h1.trans (by norm_num))
    have e' := Binary32.round_neg e
    rw [neg_sub] at e'
    have f1 : fin u - fin v = fin t := (fin_sub u v).trans e
    have f2 : fin v - fin u = fin (-t) := (fin_sub v u).trans e'
    have t1 : |t * 255| ≤ 1000 := by
      have := abs_add_le (t - (u - v)) (u - v)
      rw [sub_add_cancel] at this
      rw [abs_mul, abs_of_pos (by norm_num : (0 : ℝ) < 255)]
      norm_num at *; linarith
    obtain ⟨s, g, -⟩ := Binary32.round_fine (r := t * 255) (t1.trans (by norm_num))
    have g' := Binary32.round_neg g
    rw [← neg_mul] at g'
    have g1 : fin t * fin 255 = fin s := (fin_mul t 255).trans g
    have g2 : fin (-t) * fin 255 = fin (-s) := (fin_mul (-t) 255).trans g'
    rw [f1, f2, h255, g1, g2, h2, Binary32.powf_two, Binary32.powf_two, neg_sq]
  obtain ⟨d, e, d0, n⟩ := Distance.weighted_near ha' hb' (lim hx) (lim hy) (lim hz) (lim hx') (lim hy') (lim hz')
  obtain ⟨e0, e1, e2⟩ := Distance.get_comps ha'
  obtain ⟨f0, f1, f2⟩ := Distance.get_comps hb'
  have e' : Distance.weighted b' a' = ok (fin d) := by
    rw [← e]
    simp only [Distance.weighted, e0, e1, e2, f0, f1, f2, ok_bind]
    rw [comm x x' (lim hx) (lim hx'), comm y y' (lim hy) (lim hy'), comm z z' (lim hz) (lim hz'), fin_add x' x, fin_add x x', add_comm]
  have m1 := (Distance.between_measures ha.def_ hb.def_ (by simp) ha.col hb.col ea eb (f := Distance.weighted) e).1
  have m2 := (Distance.between_measures hb.def_ ha.def_ (by simp) hb.col ha.col eb ea (f := Distance.weighted) e').1
  refine ⟨d, m1, m2, fun hv => ?_⟩
  obtain ⟨rfl, rfl, rfl⟩ := view_unique (by simp) hb.def_ hb.col vb ((hv _ _ _).mp va)
  have zero : ∀ u : ℝ, powf ((fin u - fin u) * 255) 2 = fin 0 := by
    intro u
    have f1 : fin u - fin u = fin 0 := (fin_sub u u).trans (by rw [sub_self]; exact FloatModel.rnd_zero)
    have f2 : fin 0 * fin 255 = fin 0 := (fin_mul 0 255).trans (by rw [zero_mul]; exact FloatModel.rnd_zero)
    rw [f1, h255, f2, h2, Binary32.powf_two]
    norm_num [Binary32.round_zero]
  obtain ⟨⟨p, ep, -⟩, ⟨q, eq, -⟩⟩ := Distance.weights_near (lim hx') (lim hx')
  have h4 : (4 : Fl) = fin 4 := by simp
  have m0 : ∀ u : ℝ, fin u * fin 0 = fin 0 := fun u => (fin_mul u 0).trans (by rw [mul_zero]; exact FloatModel.rnd_zero)
  have a0 : fin 0 + fin 0 = fin 0 := (fin_add 0 0).trans (by rw [add_zero]; exact FloatModel.rnd_zero)
  have s0 : Fl.sqrt (fin 0) = fin 0 := by simp [Fl.sqrt, FloatModel.rnd_zero]
  have q0 : fin 0 / fin 255 = fin 0 := (fin_div 0 255 (by norm_num)).trans (by rw [zero_div]; exact FloatModel.rnd_zero)
  simp only [Distance.weighted, e0, e1, e2, f0, f1, f2, ok_bind, zero] at e
  rw [ep, eq, h4, m0, m0, m0, a0, a0, s0, h255, q0] at e
  simpa using e.symm

/-- Two colours whose components are `float` numbers, in binary32. -/
example (w : World) (sp : Option Nat) : letI := Binary32.binary32
    ∃ a b : Color, Color.construct .rgbDeep [fin (1 / 2), fin (1 / 4), fin 1] 1 sp = ok a ∧ Color.construct .rgbDeep [fin 0, fin (3 / 4), fin (1 / 8)] 1 sp = ok b ∧
      ∃ d : ℝ, Measures Distance.euclidean_distance_weighted w a b (fin d) ∧ |d - redmean (1 / 2) (1 / 4) 1 0 (3 / 4) (1 / 8)| ≤ redmean (1 / 2) (1 / 4) 1 0 (3 / 4) (1 / 8) * (13 / 10 ^ 7) + 1 / 10 ^ 9 := by
  letI := Binary32.binary32
  haveI := Binary32.binary32_fine
  haveI := Binary32.binary32_square
  have mk : ∀ p q r : ℝ, 0 ≤ p ∧ p ≤ 1 → 0 ≤ q ∧ q ≤ 1 → 0 ≤ r ∧ r ≤ 1 → ∃ a, Color.construct .rgbDeep [fin p, fin q, fin r] 1 sp = ok a ∧ Valid w .rgbDeep a ∧ View w a .rgbDeep p q r := by
    intro p q r hp hq hr
    obtain ⟨a, ea⟩ := Conv.construct_total .rgbDeep (vs := [fin p, fin q, fin r]) 1 sp rfl
    have ha := Conv.construct_result (t := .rgbDeep) (by simp) rfl ea
    have cl : ∀ u : ℝ, 0 ≤ u ∧ u ≤ 1 → Color.clamp (fin u) 1 0 = fin u := fun u hu => by rw [one_def, zero_def, Color.clamp_fin, min_eq_left hu.2, max_eq_left hu.1]
    refine ⟨a, ea, valid_own (by simp) ha.col ha.rng, a, (converts_iff (by simp) (by simp) ha.col).mpr (by simp [Val.to]), ?_⟩
    rw [Color.construct_rgbDeep] at ea
    obtain rfl : Color.mkRgbDeep (fin p) (fin q) (fin r) 1 sp = a := by simpa using ea
    simp only [Color.mkRgbDeep, cl p hp, cl q hq, cl r hr]
  obtain ⟨a, ea, va, ua⟩ := mk (1 / 2) (1 / 4) 1 (by norm_num) (by norm_num) (by norm_num)
  obtain ⟨b, eb, vb, ub⟩ := mk 0 (3 / 4) (1 / 8) (by norm_num) (by norm_num) (by norm_num)
  obtain ⟨d, m, -, n⟩ := C170_weighted w a b va vb _ _ _ _ _ _ ua ub
  exact ⟨a, b, ea, eb, d, m, n⟩
