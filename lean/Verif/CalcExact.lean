import Verif.CalcLemmas

/-! Helper lemmas: colour arithmetic without rounding. -/

open Outcome Fl Prog ObjectSpec ConvSpec BlendSpec

namespace Calc

/-- A colour of type `t` as constructors and channel setters leave it, with a valid alpha. -/
structure Proper (t : ColorType) (c : Color) : Prop where
  col : IsColor t c
  rng : ∀ i (h : i < c.comps.length), InRange (setterRange t i).1 (setterRange t i).2 c.comps[i]
  alpha : InRange 0 1 c.malpha

/-- The number in channel `i`. -/
noncomputable def chan (c : Color) (i : Nat) : ℝ :=
  match c.comps[i]? with
  | some (fin x) => x
  | _ => 0

/-- The opacity. -/
noncomputable def opac (c : Color) : ℝ :=
  match c.malpha with
  | fin x => x
  | _ => 0

theorem Proper.comps {t : ColorType} {c : Color} (h : Proper t c) : c.comps = (List.range (Color.count t)).map (fun i => fin (chan c i)) := by
  apply List.ext_getElem
  · simp [h.col.len]
  · intro i h1 h2
    obtain ⟨x, hx, -⟩ := h.rng i h1
    simp [chan, List.getElem?_eq_getElem h1, hx]

theorem Proper.chan_range {t : ColorType} {c : Color} (h : Proper t c) {i : Nat} (hi : i < Color.count t) :
    (setterRange t i).1 ≤ chan c i ∧ chan c i ≤ (setterRange t i).2 := by
  have hl : i < c.comps.length := by rw [h.col.len]; exact hi
  obtain ⟨x, hx, hr⟩ := h.rng i hl
  simpa [chan, List.getElem?_eq_getElem hl, hx] using hr

theorem Proper.opac_eq {t : ColorType} {c : Color} (h : Proper t c) : c.malpha = fin (opac c) := by
  obtain ⟨x, hx, -⟩ := h.alpha
  simp [opac, hx]

theorem Proper.opac_range {t : ColorType} {c : Color} (h : Proper t c) : 0 ≤ opac c ∧ opac c ≤ 1 := by
  obtain ⟨x, hx, hr⟩ := h.alpha
  simpa [opac, hx] using hr

/-- The colour is its channels, its opacity and its space. -/
theorem Proper.eta {t : ColorType} {c : Color} (h : Proper t c) :
    c = ⟨t, t, (List.range (Color.count t)).map (fun i => fin (chan c i)), fin (opac c), Color.maxOf t, Color.minOf t, c.space⟩ := by
  obtain ⟨cl, ct, v, a, mx, mn, sp⟩ := c
  have h1 := h.col.cls
  have h2 := h.col.ctype
  have h3 := h.col.maxv
  have h4 := h.col.minv
  have h5 := h.comps
  have h6 := h.opac_eq
  simp only at h1 h2 h3 h4 h5 h6
  subst h1 h2 h3 h4
  simp only [Color.mk.injEq, true_and]
  exact ⟨h5, h6, trivial⟩

section
variable [FloatModel] [ExactModel]

theorem Proper.alpha_eq {t : ColorType} {c : Color} (h : Proper t c) : c.alpha = fin (if Color.scalesAlpha t then opac c * 255 else opac c) := by
  rw [Color.alpha, h.col.cls, h.opac_eq]
  split <;> simp

/-- The combination of two numbers that the sums of a class use. -/
noncomputable def combR (t : ColorType) (w x y : ℝ) : ℝ :=
  if t = .rgbTrue ∨ t = .rgbDeep then Real.sqrt (w * x ^ 2 + (1 - w) * y ^ 2) else w * x + (1 - w) * y

omit [FloatModel] [ExactModel] in
theorem combR_between (t : ColorType) {w x y : ℝ} (h0 : 0 ≤ w) (h1 : w ≤ 1) (hx : t = .rgbTrue ∨ t = .rgbDeep → 0 ≤ x ∧ 0 ≤ y) :
    min x y ≤ combR t w x y ∧ combR t w x y ≤ max x y := by
  unfold combR
  split
  · next ht =>
    obtain ⟨hx, hy⟩ := hx ht
    constructor
    · apply Real.le_sqrt_of_sq_le
      have h2 : (min x y) ^ 2 ≤ x ^ 2 := pow_le_pow_left₀ (le_min hx hy) (min_le_left _ _) 2
      have h3 : (min x y) ^ 2 ≤ y ^ 2 := pow_le_pow_left₀ (le_min hx hy) (min_le_right _ _) 2
      nlinarith
    · apply Real.sqrt_le_iff.mpr
      refine ⟨le_max_of_le_left hx, ?_⟩
      have h2 : x ^ 2 ≤ (max x y) ^ 2 := pow_le_pow_left₀ hx (le_max_left _ _) 2
      have h3 : y ^ 2 ≤ (max x y) ^ 2 := pow_le_pow_left₀ hy (le_max_right _ _) 2
      nlinarith
  · constructor
    · have := min_le_left x y
      have := min_le_right x y
      nlinarith
    · have := le_max_left x y
      have := le_max_right x y
      nlinarith

omit [FloatModel] [ExactModel] in
theorem combR_self (t : ColorType) (w : ℝ) {x : ℝ} (hx : t = .rgbTrue ∨ t = .rgbDeep → 0 ≤ x) : combR t w x x = x := by
  unfold combR
  split
  · next ht =>
    rw [show w * x ^ 2 + (1 - w) * x ^ 2 = x ^ 2 by ring, Real.sqrt_sq (hx ht)]
  · ring

omit [FloatModel] [ExactModel] in
theorem combR_one (t : ColorType) {x : ℝ} (y : ℝ) (hx : t = .rgbTrue ∨ t = .rgbDeep → 0 ≤ x) : combR t 1 x y = x := by
  unfold combR
  split
  · next ht =>
    rw [show 1 * x ^ 2 + (1 - 1) * y ^ 2 = x ^ 2 by ring, Real.sqrt_sq (hx ht)]
  · ring

omit [FloatModel] [ExactModel] in
theorem combR_zero (t : ColorType) (x : ℝ) {y : ℝ} (hy : t = .rgbTrue ∨ t = .rgbDeep → 0 ≤ y) : combR t 0 x y = y := by
  unfold combR
  split
  · next ht =>
    rw [show 0 * x ^ 2 + (1 - 0) * y ^ 2 = y ^ 2 by ring, Real.sqrt_sq (hy ht)]
  · ring

omit [FloatModel] [ExactModel] in
theorem combR_scale (t : ColorType) (w x y : ℝ) {k : ℝ} (hk : 0 ≤ k) : combR t w (x * k) (y * k) = combR t w x y * k := by
  unfold combR
  split
  · rw [show w * (x * k) ^ 2 + (1 - w) * (y * k) ^ 2 = (w * x ^ 2 + (1 - w) * y ^ 2) * k ^ 2 by ring, Real.sqrt_mul' _ (sq_nonneg k), Real.sqrt_sq hk]
  · ring

theorem quadratic_exact {w x y : ℝ} (h0 : 0 ≤ w) (h1 : w ≤ 1) : quadratic (fin w) (fin (1 - w)) (fin x) (fin y) = fin (Real.sqrt (w * x ^ 2 + (1 - w) * y ^ 2)) := by
  have p : ∀ x : ℝ, powf (fin x) 2 = fin (x ^ 2) := by
    intro x
    rw [lit_def, ExactModel.powf_eq x 2 (Or.inr (Or.inr ⟨2, by norm_num⟩))]
    norm_cast
  simp only [quadratic, p, mul_exact, add_exact]
  rw [sqrt_exact]
  have := sq_nonneg x
  have := sq_nonneg y
  have : 0 ≤ 1 - w := by linarith
  positivity

theorem linear_exact (w x y : ℝ) : linear (fin w) (fin (1 - w)) (fin x) (fin y) = fin (w * x + (1 - w) * y) := by
  simp [linear]

omit [FloatModel] [ExactModel] in
theorem byteLimit_keep {x : ℝ} (h0 : 0 ≤ x) (h1 : x ≤ 255) : byteLimit (fin x) = fin x := by
  simp only [byteLimit, zero_def, lit_def, fmax_fin, fmin_fin]
  rw [max_eq_left h0, min_eq_left h1]

omit [FloatModel] [ExactModel] in
theorem zipWith_range (f : Fl → Fl → Fl) (n : Nat) (x y : Nat → Fl) :
    List.zipWith f ((List.range n).map x) ((List.range n).map y) = (List.range n).map (fun i => f (x i) (y i)) := by
  rw [List.zipWith_map, List.zipWith_self]

/-- The eight classes whose sums and mixtures are computed from their own components. -/
def Flat (t : ColorType) : Prop :=
  t = .rgbTrue ∨ t = .rgbDeep ∨ t = .greyTrue ∨ t = .greyDeep ∨ t = .cmyk ∨ t = .xyz ∨ t = .xyy ∨ t = .cieluv

omit [FloatModel] [ExactModel] in
theorem nonneg_rgb {t : ColorType} {c : Color} (h : Proper t c) {i : Nat} (hi : i < Color.count t) : t = .rgbTrue ∨ t = .rgbDeep → 0 ≤ chan c i := by
  have := (h.chan_range hi).1
  rintro (rfl | rfl) <;> simpa [setterRange, channelRange] using this

omit [FloatModel] [ExactModel] in
theorem mixed_range {t : ColorType} {a b : Color} (ha : Proper t a) (hb : Proper t b) {w : ℝ} (h0 : 0 ≤ w) (h1 : w ≤ 1) {i : Nat} (hi : i < Color.count t) :
    (setterRange t i).1 ≤ combR t w (chan a i) (chan b i) ∧ combR t w (chan a i) (chan b i) ≤ (setterRange t i).2 := by
  have h := combR_between t h0 h1 (fun ht => ⟨nonneg_rgb ha hi ht, nonneg_rgb hb hi ht⟩)
  exact ⟨(le_min (ha.chan_range hi).1 (hb.chan_range hi).1).trans h.1, h.2.trans (max_le (ha.chan_range hi).2 (hb.chan_range hi).2)⟩

/-- What mixing two colours of one of the eight classes gives. -/
noncomputable def mixed (t : ColorType) (w : ℝ) (ia : Bool) (a b : Color) : Color :=
  ⟨t, t, (List.range (Color.count t)).map (fun i => fin (combR t w (chan a i) (chan b i))), fin (if ia then combR t w (opac a) (opac b) else opac a), Color.maxOf t, Color.minOf t, a.space⟩

theorem construct_map {t : ColorType} (ht : t ≠ .undefined) (f : Nat → ℝ) (al : Fl) (sp : Option Nat)
    (hr : ∀ i < Color.count t, (setterRange t i).1 ≤ f i ∧ f i ≤ (setterRange t i).2) :
    Color.construct t ((List.range (Color.count t)).map (fun i => fin (f i))) al sp =
      ok ⟨t, t, (List.range (Color.count t)).map (fun i => fin (f i)), if Color.scalesAlpha t then Color.clamp (al / 255) 1 0 else al, Color.maxOf t, Color.minOf t, sp⟩ := by
  apply construct_keep ht
  · simp
  · intro i hi
    have hi' : i < Color.count t := by simpa using hi
    simpa using hr i hi'

theorem addVal_mixed {t : ColorType} (ht : Flat t) {a b : Color} (ha : Proper t a) (hb : Proper t b) {w : ℝ} (h0 : 0 ≤ w) (h1 : w ≤ 1) (ia : Bool) :
    addVal t (fin w) (fin (1 - w)) ia a b = ok (mixed t w ia a b) := by
  have hz := zip_all (quadratic (fin w) (fin (1 - w))) ha.col hb.col
  have hz' := zip_all (linear (fin w) (fin (1 - w))) ha.col hb.col
  rw [ha.comps, hb.comps, zipWith_range] at hz hz'
  simp only [quadratic_exact h0 h1] at hz
  simp only [linear_exact] at hz'
  have hal := combR_between t (x := opac a) (y := opac b) h0 h1 (fun _ => ⟨ha.opac_range.1, hb.opac_range.1⟩)
  have hal0 : 0 ≤ combR t w (opac a) (opac b) := (le_min ha.opac_range.1 hb.opac_range.1).trans hal.1
  have hal1 : combR t w (opac a) (opac b) ≤ 1 := hal.2.trans (max_le ha.opac_range.2 hb.opac_range.2)
  have hrng := fun i (hi : i < Color.count t) => mixed_range ha hb h0 h1 hi
  have hq : ∀ x y, (t = .rgbTrue ∨ t = .rgbDeep) → Real.sqrt (w * x ^ 2 + (1 - w) * y ^ 2) = combR t w x y := fun x y h => by rw [combR, if_pos h]
  have hn : ∀ x y, ¬ (t = .rgbTrue ∨ t = .rgbDeep) → w * x + (1 - w) * y = combR t w x y := fun x y h => by rw [combR, if_neg h]
  have hsc := combR_scale t w (opac a) (opac b) (k := 255) (by norm_num)
  -- the true colour classes limit twice
  have scaled : Color.scalesAlpha t = true → ∀ v : ℝ, v = (if ia then combR t w (opac a) (opac b) else opac a) * 255 →
      Color.clamp (byteLimit (fin v) / 255) 1 0 = fin (if ia then combR t w (opac a) (opac b) else opac a) := by
    rintro - v rfl
    have hv : 0 ≤ (if ia then combR t w (opac a) (opac b) else opac a) ∧ (if ia then combR t w (opac a) (opac b) else opac a) ≤ 1 := by
      split
      · exact ⟨hal0, hal1⟩
      · exact ha.opac_range
    generalize (if ia then combR t w (opac a) (opac b) else opac a) = v at hv ⊢
    rw [byteLimit_keep (by linarith) (by linarith), lit_def, div_exact _ _ (by norm_num), show v * 255 / 255 = v by ring]
    exact Conv.clamp_unit hv.1 hv.2
  have htu : t ≠ .undefined := by rintro rfl; simp [Flat] at ht
  have hc := construct_map htu _ (alphaOf (linear (fin w) (fin (1 - w))) ia a b) a.space hrng
  rcases ht with rfl | rfl | rfl | rfl | rfl | rfl | rfl | rfl
  case inl =>
    simp only [hq _ _ (Or.inl rfl)] at hz
    simp only [addVal]
    rw [show (3 : Nat) = Color.count .rgbTrue from rfl, hz, ok_bind]
    have e : List.map byteLimit (List.map (fun i => fin (combR .rgbTrue w (chan a i) (chan b i))) (List.range (Color.count .rgbTrue))) =
        List.map (fun i => fin (combR .rgbTrue w (chan a i) (chan b i))) (List.range (Color.count .rgbTrue)) := by
      rw [List.map_map]
      apply List.map_congr_left
      intro i hi
      have := hrng i (by simpa using hi)
      exact byteLimit_keep (by simpa [setterRange, channelRange] using this.1) (by simpa [setterRange, channelRange] using this.2)
    rw [e, construct_map (by simp) _ _ _ hrng]
    have ea : alphaOf (quadratic (fin w) (fin (1 - w))) ia a b = fin ((if ia then combR .rgbTrue w (opac a) (opac b) else opac a) * 255) := by
      simp only [alphaOf, ha.alpha_eq, hb.alpha_eq, Color.scalesAlpha, if_true, quadratic_exact h0 h1, hq _ _ (Or.inl rfl), hsc]
      split <;> rfl
    rw [ea, scaled rfl _ rfl]
    simp [mixed, Color.scalesAlpha]
  case inr.inl =>
    simp only [hq _ _ (Or.inr rfl)] at hz
    simp only [addVal]
    rw [show (3 : Nat) = Color.count .rgbDeep from rfl, hz, ok_bind, construct_map (by simp) _ _ _ hrng]
    have ea : alphaOf (quadratic (fin w) (fin (1 - w))) ia a b = fin (if ia then combR .rgbDeep w (opac a) (opac b) else opac a) := by
      simp only [alphaOf, ha.alpha_eq, hb.alpha_eq, Color.scalesAlpha, Bool.false_eq_true, if_false, quadratic_exact h0 h1, hq _ _ (Or.inr rfl)]
      split <;> rfl
    rw [ea]
    simp [mixed, Color.scalesAlpha]
  case inr.inr.inl =>
    simp only [hn _ _ (by simp : ¬ (ColorType.greyTrue = .rgbTrue ∨ ColorType.greyTrue = .rgbDeep))] at hz'
    simp only [addVal]
    rw [show (1 : Nat) = Color.count .greyTrue from rfl, hz', ok_bind]
    have e : List.map byteLimit (List.map (fun i => fin (combR .greyTrue w (chan a i) (chan b i))) (List.range (Color.count .greyTrue))) =
        List.map (fun i => fin (combR .greyTrue w (chan a i) (chan b i))) (List.range (Color.count .greyTrue)) := by
      rw [List.map_map]
      apply List.map_congr_left
      intro i hi
      have := hrng i (by simpa using hi)
      exact byteLimit_keep (by simpa [setterRange, channelRange] using this.1) (by simpa [setterRange, channelRange] using this.2)
    rw [e, construct_map (by simp) _ _ _ hrng]
    have ea : alphaOf (linear (fin w) (fin (1 - w))) ia a b = fin ((if ia then combR .greyTrue w (opac a) (opac b) else opac a) * 255) := by
      simp only [alphaOf, ha.alpha_eq, hb.alpha_eq, Color.scalesAlpha, if_true, linear_exact, hn _ _ (by simp : ¬ (ColorType.greyTrue = .rgbTrue ∨ ColorType.greyTrue = .rgbDeep)), hsc]
      split <;> rfl
    rw [ea, scaled rfl _ rfl]
    simp [mixed, Color.scalesAlpha]
  all_goals
    simp only [hn _ _ (by simp)] at hz'
    simp only [Color.count] at hz' hc
    simp only [addVal, hz', ok_bind]
    rw [hc]
    simp only [alphaOf, ha.alpha_eq, hb.alpha_eq, Color.scalesAlpha, Bool.false_eq_true, if_false, linear_exact, hn (opac a) (opac b) (by simp), mixed, Color.count]
    split <;> rfl

/-! ### Averages -/

/-- The sum of channel `i`. -/
noncomputable def total (cs : List Color) (i : Nat) : ℝ := (cs.map (chan · i)).sum

/-- The sum of the opacities. -/
noncomputable def opacity (cs : List Color) : ℝ := (cs.map opac).sum

theorem accumulate_exact {t : ColorType} {c : Color} (h : Proper t c) (S : Nat → ℝ) :
    accumulate ((List.range (Color.count t)).map (fun i => fin (S i))) c 0 = ok ((List.range (Color.count t)).map (fun i => fin (S i + chan c i))) := by
  rw [accumulate_eq _ _ _ (by simp [h.col.len]), List.drop_zero, h.comps, zipWith_range]
  simp

theorem loop_first {t : ColorType} (first : Color) (cs : List Color) (h : ∀ c ∈ cs, Proper t c) (hn : cs ≠ []) (S : Nat → ℝ) (al : Fl) :
    averageLoop t false first cs ((List.range (Color.count t)).map (fun i => fin (S i))) al =
      ok ((List.range (Color.count t)).map (fun i => fin (S i + total cs i)), first.alpha) := by
  induction cs generalizing S al with
  | nil => exact absurd rfl hn
  | cons c cs ih =>
    rw [averageLoop, accumulate_exact (h c (by simp)), ok_bind]
    simp only [Bool.false_eq_true, if_false]
    cases cs with
    | nil => simp [averageLoop, total]
    | cons d ds =>
      rw [ih (fun x hx => h x (by simp [hx])) (by simp)]
      simp [total, add_assoc]

theorem loop_mean {t : ColorType} (hc : t ≠ .cmyk) (first : Color) (cs : List Color) (h : ∀ c ∈ cs, Proper t c) (S : Nat → ℝ) (al : ℝ) :
    averageLoop t true first cs ((List.range (Color.count t)).map (fun i => fin (S i))) (fin al) =
      ok ((List.range (Color.count t)).map (fun i => fin (S i + total cs i)), fin (al + opacity cs * (if Color.scalesAlpha t then 255 else 1))) := by
  induction cs generalizing S al with
  | nil => simp [averageLoop, total, opacity]
  | cons c cs ih =>
    rw [averageLoop, accumulate_exact (h c (by simp)), ok_bind]
    simp only [if_true, if_neg hc, (h c (by simp)).alpha_eq, add_exact]
    rw [ih (fun x hx => h x (by simp [hx]))]
    simp only [total, opacity, List.map_cons, List.sum_cons, add_assoc]
    congr 3
    split <;> ring

theorem loop_cmyk (first : Color) (cs : List Color) (h : ∀ c ∈ cs, Proper .cmyk c) (hn : cs ≠ []) (S : Nat → ℝ) (al : Fl) :
    averageLoop .cmyk true first cs ((List.range (Color.count .cmyk)).map (fun i => fin (S i))) al =
      ok ((List.range (Color.count .cmyk)).map (fun i => fin (S i + total cs i)), fin (S 3 + total cs 3 + opac (cs.getLast hn))) := by
  induction cs generalizing S al with
  | nil => exact absurd rfl hn
  | cons c cs ih =>
    rw [averageLoop, accumulate_exact (h c (by simp)), ok_bind]
    cases cs with
    | nil => simp [averageLoop, total, (h c (by simp)).alpha_eq, Color.scalesAlpha, Color.count]
    | cons d ds =>
      rw [ih (fun x hx => h x (by simp [hx])) (by simp)]
      simp [total, add_assoc]

omit [FloatModel] [ExactModel] in
theorem mean_between {cs : List Color} (hn : cs ≠ []) (f : Color → ℝ) {lo hi : ℝ} (h : ∀ c ∈ cs, lo ≤ f c ∧ f c ≤ hi) :
    lo ≤ (cs.map f).sum / cs.length ∧ (cs.map f).sum / cs.length ≤ hi := by
  have hp : (0 : ℝ) < cs.length := by exact_mod_cast List.length_pos_iff.mpr hn
  have h1 : ∀ cs : List Color, (∀ c ∈ cs, lo ≤ f c ∧ f c ≤ hi) → lo * cs.length ≤ (cs.map f).sum ∧ (cs.map f).sum ≤ hi * cs.length := by
    intro cs
    induction cs with
    | nil => simp
    | cons c cs ih =>
      intro h
      obtain ⟨i1, i2⟩ := ih (fun x hx => h x (by simp [hx]))
      obtain ⟨c1, c2⟩ := h c (by simp)
      simp only [List.map_cons, List.sum_cons, List.length_cons, Nat.cast_add, Nat.cast_one]
      constructor <;> linarith
  obtain ⟨h1, h2⟩ := h1 cs h
  exact ⟨(le_div_iff₀ hp).mpr h1, (div_le_iff₀ hp).mpr h2⟩

/-- The channels and, without rounding, the alpha slot of an average. -/
theorem averageVal_exact {t : ColorType} (ht : t ≠ .undefined) (ia : Bool) {first : Color} {rest : List Color} (h : ∀ c ∈ first :: rest, Proper t c) :
    ∃ al, averageLoop t ia first (first :: rest) (List.replicate (Color.count t) 0) 0 =
        ok ((List.range (Color.count t)).map (fun i => fin (total (first :: rest) i)), al) ∧
      averageVal t ia (first :: rest) = ok ⟨t, t, (List.range (Color.count t)).map (fun i => fin (total (first :: rest) i / ((first :: rest).length : ℝ))),
        (let v := if ia then al / fin ((first :: rest).length : ℝ) else al; if Color.scalesAlpha t then Color.clamp (v / 255) 1 0 else v), Color.maxOf t, Color.minOf t, first.space⟩ := by
  have hz : List.replicate (Color.count t) (0 : Fl) = (List.range (Color.count t)).map (fun _ => fin 0) := by
    simp [List.map_const']
  have : ∃ al, averageLoop t ia first (first :: rest) (List.replicate (Color.count t) 0) 0 =
      ok ((List.range (Color.count t)).map (fun i => fin (total (first :: rest) i)), al) := by
    rw [hz]
    cases ia
    · exact ⟨_, by simpa using loop_first first (first :: rest) h (by simp) (fun _ => 0) 0⟩
    · by_cases hc : t = .cmyk
      · subst hc
        exact ⟨_, by simpa using loop_cmyk first (first :: rest) h (by simp) (fun _ => 0) 0⟩
      · exact ⟨_, by simpa using loop_mean hc first (first :: rest) h (fun _ => 0) 0⟩
  obtain ⟨al, e⟩ := this
  refine ⟨al, e, ?_⟩
  have hn : ((first :: rest).length : ℝ) ≠ 0 := by
    have : (0 : ℝ) < (first :: rest).length := by exact_mod_cast List.length_pos_iff.mpr (by simp)
    exact this.ne'
  rw [averageVal, e, ok_bind]
  simp only [lit_exact, List.map_map]
  have he : ((fun x => x / fin ((first :: rest).length : ℝ)) ∘ fun i => fin (total (first :: rest) i)) = fun i => fin (total (first :: rest) i / ((first :: rest).length : ℝ)) := by
    funext i
    exact div_exact _ _ hn
  rw [he]
  exact construct_map ht (fun i => total (first :: rest) i / ((first :: rest).length : ℝ)) _ _ (fun i hi => mean_between (by simp) _ (fun c hc => (h c hc).chan_range hi))

omit [FloatModel] [ExactModel] in
/-- The objects a list of pointers refers to. -/
def Refs (h : Heap) (ps : List Ptr) (cs : List Color) : Prop := List.Forall₂ (fun p c => ∃ i, p = some i ∧ h.colors[i]? = some c) ps cs

omit [FloatModel] [ExactModel] in
theorem loadAll_refs {h : Heap} {ps : List Ptr} {cs : List Color} (hr : Refs h ps cs) : loadAll ps h = (ok cs, h) := by
  induction hr with
  | nil => rfl
  | cons hp _ ih =>
    obtain ⟨i, rfl, hi⟩ := hp
    simp only [loadAll, Prog.bind_def, load, hi, ih, pure_run]

end

end Calc
