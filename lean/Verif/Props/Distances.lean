import Verif.DistanceLemmas
import Verif.Props.Convert

/-!
# Properties C69–C74 and C90–C92: colour distances

Except where noted the arithmetic is exact.  Colours may have any type; they are compared through their `View`, the components after conversion.
-/

open Outcome Fl Prog ObjectSpec ConvSpec BlendSpec DistSpec

namespace DistSpec
variable [FloatModel]

/-- Two colours have the same components after conversion to type `t`. -/
def SameView (w : World) (t : ColorType) (a b : Color) : Prop := ∀ x y z, View w a t x y z ↔ View w b t x y z

/-- `d` is a metric on the colours `a`, `b`, `c` of memory `w`, up to having the same components in type `t`. -/
def MetricOn (d : Ptr → Ptr → Prog Fl) (w : World) (t : ColorType) (a b c : Color) : Prop :=
  ∃ ab ba bc ac : ℝ, Measures d w a b (fin ab) ∧ Measures d w b a (fin ba) ∧ Measures d w b c (fin bc) ∧ Measures d w a c (fin ac) ∧
    0 ≤ ab ∧ ba = ab ∧ (ab = 0 ↔ SameView w t a b) ∧ ac ≤ ab + bc

/-- Every colour that can be converted to three components has exactly one view. -/
theorem view_unique {w : World} {t : ColorType} (ht : t ≠ .undefined) {c : Color} (hd : c.ctype ≠ .undefined) (hc : IsColor c.ctype c) {x y z x' y' z' : ℝ}
    (h : View w c t x y z) (h' : View w c t x' y' z') : x = x' ∧ y = y' ∧ z = z' := by
  obtain ⟨c1, e1, h1⟩ := Distance.view_val ht hd hc h
  obtain ⟨c2, e2, h2⟩ := Distance.view_val ht hd hc h'
  obtain rfl : c1 = c2 := by rw [e1] at e2; simpa using e2
  rw [h1] at h2
  simpa using h2

/-- Views of valid colours exist. -/
theorem view_of_valid {w : World} {t : ColorType} (ht : t ≠ .undefined) (h3 : Color.count t = 3) {c : Color} (hv : Valid w t c) :
    ∃ x y z, View w c t x y z ∧ ((channelRange t 0).1 ≤ x ∧ x ≤ (channelRange t 0).2) ∧ ((channelRange t 1).1 ≤ y ∧ y ≤ (channelRange t 1).2) ∧
      ((channelRange t 2).1 ≤ z ∧ z ≤ (channelRange t 2).2) := by
  obtain ⟨c', x, y, z, e, hc, hx, -, r0, r1, r2, -⟩ := Distance.view_exists ht h3 hv
  exact ⟨x, y, z, ⟨c', (converts_iff hv.def_ ht hv.col).mpr e, hx⟩, r0, r1, r2⟩

theorem sameView_iff {w : World} {t : ColorType} (ht : t ≠ .undefined) {a b : Color} (ha : Valid w t a) (hb : Valid w t b) {x y z x' y' z' : ℝ}
    (va : View w a t x y z) (vb : View w b t x' y' z') : SameView w t a b ↔ x = x' ∧ y = y' ∧ z = z' := by
  constructor
  · intro h
    exact view_unique ht hb.def_ hb.col ((h _ _ _).mp va) vb
  · rintro ⟨rfl, rfl, rfl⟩ u v s
    constructor
    · intro h
      obtain ⟨rfl, rfl, rfl⟩ := view_unique ht ha.def_ ha.col h va
      exact vb
    · intro h
      obtain ⟨rfl, rfl, rfl⟩ := view_unique ht hb.def_ hb.col h vb
      exact va

/-- A distance function evaluates its formula on the views. -/
theorem measures_of {w : World} {t : ColorType} (ht : t ≠ .undefined) {a b : Color} (ha : Valid w t a) (hb : Valid w t b) {x y z x' y' z' : ℝ}
    (va : View w a t x y z) (vb : View w b t x' y' z') {f : Color → Color → Outcome Fl} {v : Fl}
    (hf : ∀ p q : Color, p.comps = [fin x, fin y, fin z] → q.comps = [fin x', fin y', fin z'] → f p q = ok v) :
    Measures (Distance.between (Conv.dispatcher t) f) w a b v := by
  obtain ⟨a', ea, ha'⟩ := Distance.view_val ht ha.def_ ha.col va
  obtain ⟨b', eb, hb'⟩ := Distance.view_val ht hb.def_ hb.col vb
  exact (Distance.between_measures ha.def_ hb.def_ ht ha.col hb.col ea eb (hf a' b' ha' hb')).1

end DistSpec

section
variable [FloatModel] [ExactModel]

/-! ## C69 and C70: Euclidean distance -/

theorem Distance.squared_rgb {w : World} {a b : Color} (ha : Valid w .rgbDeep a) (hb : Valid w .rgbDeep b) {x y z x' y' z' : ℝ}
    (va : View w a .rgbDeep x y z) (vb : View w b .rgbDeep x' y' z') {space : ColorType} (hs : space ≠ .cieluv) :
    Measures (fun p q => Distance.euclidean_distance_squared p q space) w a b (fin (Distance.sq3 x y z x' y' z')) := by
  refine Distance.measures_congr (measures_of (by simp) ha hb va vb (f := fun a b => Distance.squares a b a.comps.length 0 0) fun p q hp hq => Distance.squares_exact hp hq) ?_
  intro i j hij
  have : (some i : Ptr) ≠ some j := by simpa using hij
  simp only [Distance.euclidean_distance_squared, if_neg this, if_neg hs]
  rfl

theorem Distance.squared_luv {w : World} {a b : Color} (ha : Valid w .cieluv a) (hb : Valid w .cieluv b) {x y z x' y' z' : ℝ}
    (va : View w a .cieluv x y z) (vb : View w b .cieluv x' y' z') :
    Measures (fun p q => Distance.euclidean_distance_squared p q .cieluv) w a b (fin (Distance.sq3 x y z x' y' z')) := by
  refine Distance.measures_congr (measures_of (by simp) ha hb va vb (f := fun a b => Distance.squares a b a.comps.length 0 0) fun p q hp hq => Distance.squares_exact hp hq) ?_
  intro i j hij
  have : (some i : Ptr) ≠ some j := by simpa using hij
  simp only [Distance.euclidean_distance_squared, if_neg this, if_true]
  rfl

theorem Distance.euclid_of_squared {w : World} {a b : Color} {space : ColorType} {r : ℝ} (hr : 0 ≤ r)
    (h : Measures (fun p q => Distance.euclidean_distance_squared p q .rgbDeep) w a b (fin r)) :
    Measures (fun p q => Distance.euclidean_distance p q space) w a b (fin (Real.sqrt r)) := by
  intro g i j hw hij hi hj
  obtain ⟨h', e, h1, h2⟩ := h g i j hw hij hi hj
  refine ⟨h', ?_, h1, h2⟩
  have : (some i : Ptr) ≠ some j := by simpa using hij
  simp only [Distance.euclidean_distance, if_neg this, Prog.bind_def, e, Prog.pure_run, sqrt_exact _ hr]

/-- C69, the value: the length of the difference of the RGB components. -/
theorem C69_value (w : World) (a b : Color) (ha : Valid w .rgbDeep a) (hb : Valid w .rgbDeep b) (x y z x' y' z' : ℝ)
    (va : View w a .rgbDeep x y z) (vb : View w b .rgbDeep x' y' z') (space : ColorType) (hs : space ≠ .cieluv) :
    Measures (fun p q => Distance.euclidean_distance_squared p q space) w a b (fin ((x - x') ^ 2 + (y - y') ^ 2 + (z - z') ^ 2)) ∧
    Measures (fun p q => Distance.euclidean_distance p q space) w a b (fin (Real.sqrt ((x - x') ^ 2 + (y - y') ^ 2 + (z - z') ^ 2))) :=
  ⟨Distance.squared_rgb ha hb va vb hs, Distance.euclid_of_squared (Distance.sq3_nonneg _ _ _ _ _ _) (Distance.squared_rgb ha hb va vb (by simp))⟩

/-- C69, the metric laws, for colours of all types. -/
theorem C69_metric (w : World) (a b c : Color) (ha : Valid w .rgbDeep a) (hb : Valid w .rgbDeep b) (hc : Valid w .rgbDeep c) (space : ColorType) (hs : space ≠ .cieluv) :
    MetricOn (fun p q => Distance.euclidean_distance p q space) w .rgbDeep a b c := by
  obtain ⟨x, y, z, va, -⟩ := view_of_valid (by simp) rfl ha
  obtain ⟨x', y', z', vb, -⟩ := view_of_valid (by simp) rfl hb
  obtain ⟨x'', y'', z'', vc, -⟩ := view_of_valid (by simp) rfl hc
  refine ⟨_, _, _, _, (C69_value w a b ha hb _ _ _ _ _ _ va vb space hs).2, (C69_value w b a hb ha _ _ _ _ _ _ vb va space hs).2,
    (C69_value w b c hb hc _ _ _ _ _ _ vb vc space hs).2, (C69_value w a c ha hc _ _ _ _ _ _ va vc space hs).2, Real.sqrt_nonneg _, ?_, ?_, ?_⟩
  · exact congrArg Real.sqrt (Distance.sq3_comm x' y' z' x y z)
  · exact (Real.sqrt_eq_zero (Distance.sq3_nonneg x y z x' y' z')).trans (Distance.sq3_zero.trans (sameView_iff (by simp) ha hb va vb).symm)
  · exact Distance.sq3_triangle x y z x' y' z' x'' y'' z''

/-- C69, the range of the squared distance. -/
theorem C69_squared_range (w : World) (a b : Color) (ha : Valid w .rgbDeep a) (hb : Valid w .rgbDeep b) (space : ColorType) (hs : space ≠ .cieluv) :
    ∃ d : ℝ, 0 ≤ d ∧ d ≤ 3 ∧ Measures (fun p q => Distance.euclidean_distance_squared p q space) w a b (fin d) := by
  obtain ⟨x, y, z, va, rx, ry, rz⟩ := view_of_valid (by simp) rfl ha
  obtain ⟨x', y', z', vb, rx', ry', rz'⟩ := view_of_valid (by simp) rfl hb
  refine ⟨_, Distance.sq3_nonneg x y z x' y' z', ?_, (C69_value w a b ha hb _ _ _ _ _ _ va vb space hs).1⟩
  have key : ∀ u v : ℝ, 0 ≤ u ∧ u ≤ 1 → 0 ≤ v ∧ v ≤ 1 → (u - v) ^ 2 ≤ 1 := by
    rintro u v ⟨u0, u1⟩ ⟨v0, v1⟩
    nlinarith
  have h1 := key x x' rx rx'
  have h2 := key y y' ry ry'
  have h3 := key z z' rz rz'
  unfold Distance.sq3
  linarith

/-- C69: a colour compared with itself, whatever it is.  Every rounding, the other distances too. -/
theorem C69_same_object {F : FloatModel} (p : Ptr) (h : Heap) (space : ColorType) (k1 k2 k3 k4 k5 : Fl) :
    Distance.euclidean_distance p p space h = (ok 0, h) ∧ Distance.euclidean_distance_squared p p space h = (ok 0, h) ∧
    Distance.euclidean_distance_weighted p p h = (ok 0, h) ∧ Distance.cielab_delta_e_cie76 p p h = (ok 0, h) ∧
    Distance.cielab_delta_e_cie94 k1 k2 k3 k4 k5 p p h = (ok 0, h) ∧ Distance.cielab_delta_e_cie00 k1 k2 k3 k4 k5 p p h = (ok 0, h) ∧
    Distance.cmc_delta_e_lc84 k1 k2 p p h = (ok 0, h) := by
  simp [Distance.euclidean_distance, Distance.euclidean_distance_squared, Distance.euclidean_distance_weighted, Distance.cielab_delta_e_cie76, Distance.cielab_delta_e_cie94,
    Distance.cielab_delta_e_cie00, Distance.cmc_delta_e_lc84, Distance.between, Prog.pure_run]

omit [FloatModel] [ExactModel] in
/-- C70 for every space but CIELUV, in every rounding, on every memory. -/
theorem C70_root_partial {F : FloatModel} (space : ColorType) (hs : space ≠ .cieluv) (p1 p2 : Ptr) (h h' : Heap) (v : Fl)
    (e : Distance.euclidean_distance_squared p1 p2 space h = (ok v, h')) : Distance.euclidean_distance p1 p2 space h = (ok (Fl.sqrt v), h') := by
  by_cases hp : p1 = p2
  · subst hp
    simp only [Distance.euclidean_distance_squared, if_true, Prog.pure_run, Prod.mk.injEq, ok_inj] at e
    obtain ⟨rfl, rfl⟩ := e
    simp only [Distance.euclidean_distance, if_true, Prog.pure_run]
    simp [Fl.sqrt, FloatModel.rnd_zero]
  · have : Distance.euclidean_distance_squared p1 p2 .rgbDeep = Distance.euclidean_distance_squared p1 p2 space := by
      simp [Distance.euclidean_distance_squared, hs]
    simp only [Distance.euclidean_distance, if_neg hp, this, Prog.bind_def, e, Prog.pure_run]

omit [ExactModel] in
/-- A colour object of a CIE type with given components. -/
theorem DistSpec.valid_own {w : World} {t : ColorType} (ht : t ≠ .undefined) {c : Color} (hc : IsColor t c) (hr : ComponentsInRange c) : Valid w t c :=
  ⟨by rw [hc.ctype]; exact ht, by rw [hc.ctype]; exact hc, hr, fun h => absurd hc.ctype h⟩

omit [ExactModel] in
theorem DistSpec.view_own {w : World} {t : ColorType} (ht : t ≠ .undefined) {c : Color} (hc : IsColor t c) {x y z : ℝ} (h : c.comps = [fin x, fin y, fin z]) :
    View w c t x y z :=
  ⟨c, (converts_iff ht ht hc).mpr (by simp [Val.to]), h⟩

omit [ExactModel] in
/-- LAB colours with given components. -/
theorem DistSpec.exists_lab (w : World) (l a b : ℝ) (hl : 0 ≤ l ∧ l ≤ 100) (ha : -128 ≤ a ∧ a ≤ 128) (hb : -128 ≤ b ∧ b ≤ 128) :
    ∃ c, Color.construct .lab [fin l, fin a, fin b] 1 none = ok c ∧ IsColor .lab c ∧ Valid w .lab c ∧ View w c .lab l a b := by
  obtain ⟨c, e⟩ := Conv.construct_total .lab (vs := [fin l, fin a, fin b]) 1 none rfl
  have hf := Conv.construct_result (t := .lab) (by simp) rfl e
  have hx : c.comps = [fin l, fin a, fin b] := by
    rw [Color.construct_lab] at e
    obtain rfl := ok_inj.mp e
    simp only [Color.mkLab, lit_def, zero_def, neg_fin]
    rw [Color.clamp_of_inRange ⟨l, rfl, hl.1, hl.2⟩, Color.clamp_of_inRange ⟨a, rfl, ha.1, ha.2⟩, Color.clamp_of_inRange ⟨b, rfl, hb.1, hb.2⟩]
  exact ⟨c, e, hf.col, valid_own (by simp) hf.col hf.rng, view_own (by simp) hf.col hx⟩


/-- C70 fails for CIELUV: the distance of these two CIELUV colours is 300, the function returns at most √3. -/
theorem C70_violated [StdSort] : ∃ (w : World) (a b : Color) (d : ℝ), Color.construct .cieluv [fin 100, fin 100, fin 100] 1 (some 0) = ok a ∧
    Color.construct .cieluv [fin 0, fin (-100), fin (-100)] 1 (some 0) = ok b ∧
    Measures (fun p q => Distance.euclidean_distance_squared p q .cieluv) w a b (fin (300 ^ 2)) ∧
    Measures (fun p q => Distance.euclidean_distance p q .cieluv) w a b (fin d) ∧ d ≤ Real.sqrt 3 ∧ d < 300 := by
  obtain ⟨w, hw, -⟩ := exists_world .sRGB .sRGB
  have mk : ∀ l u v : ℝ, 0 ≤ l ∧ l ≤ 100 → -100 ≤ u ∧ u ≤ 100 → -100 ≤ v ∧ v ≤ 100 → ∃ c, Color.construct .cieluv [fin l, fin u, fin v] 1 (some 0) = ok c ∧
      Valid w .cieluv c ∧ Valid w .rgbDeep c ∧ View w c .cieluv l u v := by
    intro l u v hl hu hv
    obtain ⟨c, e⟩ := Conv.construct_total .cieluv (vs := [fin l, fin u, fin v]) 1 (some 0) rfl
    have hf := Conv.construct_result (t := .cieluv) (by simp) rfl e
    have hx : c.comps = [fin l, fin u, fin v] := by
      rw [Color.construct_cieluv] at e
      obtain rfl := ok_inj.mp e
      simp only [Color.mkCieluv, lit_def, zero_def, neg_fin]
      rw [Color.clamp_of_inRange ⟨l, rfl, hl.1, hl.2⟩, Color.clamp_of_inRange ⟨u, rfl, hu.1, hu.2⟩, Color.clamp_of_inRange ⟨v, rfl, hv.1, hv.2⟩]
    refine ⟨c, e, valid_own (by simp) hf.col hf.rng, ⟨?_, ?_, hf.rng, fun _ _ => hf.space ▸ hw⟩, view_own (by simp) hf.col hx⟩
    · rw [hf.col.ctype]; simp
    · rw [hf.col.ctype]; exact hf.col
  obtain ⟨a, ea, va, va', ua⟩ := mk 100 100 100 (by norm_num) (by norm_num) (by norm_num)
  obtain ⟨b, eb, vb, vb', ub⟩ := mk 0 (-100) (-100) (by norm_num) (by norm_num) (by norm_num)
  obtain ⟨d, d0, d3, hd⟩ := C69_squared_range w a b va' vb' .rgbDeep (by simp)
  refine ⟨w, a, b, Real.sqrt d, ea, eb, ?_, Distance.euclid_of_squared d0 hd, Real.sqrt_le_sqrt d3, ?_⟩
  · have := Distance.squared_luv va vb ua ub
    have e : Distance.sq3 100 100 100 0 (-100) (-100) = 300 ^ 2 := by unfold Distance.sq3; norm_num
    rwa [e] at this
  · rw [Real.sqrt_lt' (by norm_num)]
    linarith

/-- The hypotheses of C69 can be met: red and a HSV colour, 1 apart or more. -/
example (w : World) : ∃ a b : Color, Color.construct .rgbDeep [1, 0, 0] 1 none = ok a ∧ Color.construct .hsv [fin 120, 1, 1] 1 none = ok b ∧
    MetricOn (fun p q => Distance.euclidean_distance p q .rgbDeep) w .rgbDeep a b a := by
  obtain ⟨a, ea⟩ := Conv.construct_total .rgbDeep (vs := [1, 0, 0]) 1 none rfl
  have ha := Conv.construct_result (t := .rgbDeep) (by simp) rfl ea
  obtain ⟨b, eb⟩ := Conv.construct_total .hsv (vs := [fin 120, 1, 1]) 1 none rfl
  have hb := Conv.construct_result (t := .hsv) (by simp) rfl eb
  have va : Valid w .rgbDeep a := valid_own (by simp) ha.col ha.rng
  have vb : Valid w .rgbDeep b := ⟨by rw [hb.col.ctype]; simp, by rw [hb.col.ctype]; exact hb.col, hb.rng, fun _ h => by simp [hb.col.ctype, Cie] at h⟩
  exact ⟨a, b, ea, eb, C69_metric w a b a va vb va .rgbDeep (by simp)⟩

/-! ## C71: weighted Euclidean distance -/

omit [FloatModel] [ExactModel] in
theorem Distance.weights {x x' : ℝ} (hx : 0 ≤ x ∧ x ≤ 1) (hx' : 0 ≤ x' ∧ x' ≤ 1) : 0 < 2 + (x + x') / 2 * 255 / 256 ∧ 0 < 2 + (255 - (x + x') / 2 * 255) / 256 := by
  constructor <;> linarith [hx.1, hx.2, hx'.1, hx'.2]

/-- C71, the value: the formula of the reference cited in the code, on components from 0 to 255, divided by 255. -/
theorem C71_value (w : World) (a b : Color) (ha : Valid w .rgbDeep a) (hb : Valid w .rgbDeep b) (x y z x' y' z' : ℝ)
    (va : View w a .rgbDeep x y z) (vb : View w b .rgbDeep x' y' z') :
    let r := (255 * x + 255 * x') / 2
    Measures Distance.euclidean_distance_weighted w a b (fin (Real.sqrt ((2 + r / 256) * (255 * x - 255 * x') ^ 2 + 4 * (255 * y - 255 * y') ^ 2 +
      (2 + (255 - r) / 256) * (255 * z - 255 * z') ^ 2) / 255)) := by
  obtain ⟨u, v, s, va', hx, -⟩ := view_of_valid (by simp) rfl ha
  obtain ⟨rfl, rfl, rfl⟩ := view_unique (by simp) ha.def_ ha.col va' va
  obtain ⟨u', v', s', vb', hx', -⟩ := view_of_valid (by simp) rfl hb
  obtain ⟨rfl, rfl, rfl⟩ := view_unique (by simp) hb.def_ hb.col vb' vb
  obtain ⟨w1, w2⟩ := Distance.weights hx hx'
  intro r
  have key : ∀ p q : Color, p.comps = [fin u, fin v, fin s] → q.comps = [fin u', fin v', fin s'] → Distance.weighted p q =
      ok (fin (Real.sqrt ((2 + r / 256) * (255 * u - 255 * u') ^ 2 + 4 * (255 * v - 255 * v') ^ 2 + (2 + (255 - r) / 256) * (255 * s - 255 * s') ^ 2) / 255)) := by
    intro p q hp hq
    rw [Distance.weighted_exact hp hq (by positivity)]
    congr 4
    simp only [r]
    ring
  exact measures_of (by simp) ha hb va vb key

/-- C71: non-negative, symmetric, zero exactly for equal RGB components, and a number. -/
theorem C71_weighted (w : World) (a b : Color) (ha : Valid w .rgbDeep a) (hb : Valid w .rgbDeep b) :
    ∃ d : ℝ, Measures Distance.euclidean_distance_weighted w a b (fin d) ∧ Measures Distance.euclidean_distance_weighted w b a (fin d) ∧ 0 ≤ d ∧ (d = 0 ↔ SameView w .rgbDeep a b) := by
  obtain ⟨x, y, z, va, hx, -⟩ := view_of_valid (by simp) rfl ha
  obtain ⟨x', y', z', vb, hx', -⟩ := view_of_valid (by simp) rfl hb
  have hx : 0 ≤ x ∧ x ≤ 1 := hx
  have hx' : 0 ≤ x' ∧ x' ≤ 1 := hx'
  have h1 := C71_value w a b ha hb _ _ _ _ _ _ va vb
  have h2 := C71_value w b a hb ha _ _ _ _ _ _ vb va
  simp only at h1 h2
  refine ⟨_, h1, ?_, by positivity, ?_⟩
  · convert h2 using 4
    ring
  · rw [sameView_iff (by simp) ha hb va vb]
    have w1 : 0 < 2 + (255 * x + 255 * x') / 2 / 256 := by linarith [hx.1, hx'.1]
    have w2 : 0 < 2 + (255 - (255 * x + 255 * x') / 2) / 256 := by linarith [hx.2, hx'.2]
    rw [div_eq_zero_iff, Real.sqrt_eq_zero (by positivity)]
    constructor
    · rintro (h | h)
      · have k1 : 0 ≤ (2 + (255 * x + 255 * x') / 2 / 256) * (255 * x - 255 * x') ^ 2 := by positivity
        have k2 : 0 ≤ 4 * (255 * y - 255 * y') ^ 2 := by positivity
        have k3 : 0 ≤ (2 + (255 - (255 * x + 255 * x') / 2) / 256) * (255 * z - 255 * z') ^ 2 := by positivity
        have e1 : (2 + (255 * x + 255 * x') / 2 / 256) * (255 * x - 255 * x') ^ 2 = 0 := by linarith
        have e2 : 4 * (255 * y - 255 * y') ^ 2 = 0 := by linarith
        have e3 : (2 + (255 - (255 * x + 255 * x') / 2) / 256) * (255 * z - 255 * z') ^ 2 = 0 := by linarith
        have e1 := pow_eq_zero_iff (two_ne_zero) |>.mp ((mul_eq_zero.mp e1).resolve_left w1.ne')
        have e2 := pow_eq_zero_iff (two_ne_zero) |>.mp ((mul_eq_zero.mp e2).resolve_left (by norm_num))
        have e3 := pow_eq_zero_iff (two_ne_zero) |>.mp ((mul_eq_zero.mp e3).resolve_left w2.ne')
        exact ⟨by linarith, by linarith, by linarith⟩
      · norm_num at h
    · rintro ⟨rfl, rfl, rfl⟩
      left
      ring

/-! ## C72: CIE76 -/

/-- C72, the value. -/
theorem C72_value (w : World) (a b : Color) (ha : Valid w .lab a) (hb : Valid w .lab b) (x y z x' y' z' : ℝ) (va : View w a .lab x y z) (vb : View w b .lab x' y' z') :
    Measures Distance.cielab_delta_e_cie76 w a b (fin (Real.sqrt ((x - x') ^ 2 + (y - y') ^ 2 + (z - z') ^ 2))) :=
  measures_of (by simp) ha hb va vb fun p q hp hq => Distance.cie76_exact hp hq

/-- C72, the metric laws; for LAB colours, and for colours of all types in terms of their LAB components. -/
theorem C72_metric (w : World) (a b c : Color) (ha : Valid w .lab a) (hb : Valid w .lab b) (hc : Valid w .lab c) : MetricOn Distance.cielab_delta_e_cie76 w .lab a b c := by
  obtain ⟨x, y, z, va, -⟩ := view_of_valid (by simp) rfl ha
  obtain ⟨x', y', z', vb, -⟩ := view_of_valid (by simp) rfl hb
  obtain ⟨x'', y'', z'', vc, -⟩ := view_of_valid (by simp) rfl hc
  refine ⟨_, _, _, _, C72_value w a b ha hb _ _ _ _ _ _ va vb, C72_value w b a hb ha _ _ _ _ _ _ vb va, C72_value w b c hb hc _ _ _ _ _ _ vb vc,
    C72_value w a c ha hc _ _ _ _ _ _ va vc, Real.sqrt_nonneg _, ?_, ?_, ?_⟩
  · exact congrArg Real.sqrt (Distance.sq3_comm x' y' z' x y z)
  · exact (Real.sqrt_eq_zero (Distance.sq3_nonneg x y z x' y' z')).trans (Distance.sq3_zero.trans (sameView_iff (by simp) ha hb va vb).symm)
  · exact Distance.sq3_triangle x y z x' y' z' x'' y'' z''

/-- A LAB colour has its own components as LAB view, so `SameView` means equal components. -/
example (w : World) : ∃ a b c : Color, Color.construct .lab [fin 50, fin 10, fin 20] 1 none = ok a ∧ Color.construct .lab [fin 60, fin (-10), fin 20] 1 none = ok b ∧
    MetricOn Distance.cielab_delta_e_cie76 w .lab a b c ∧ View w a .lab 50 10 20 ∧ Measures Distance.cielab_delta_e_cie76 w a b (fin (Real.sqrt 500)) := by
  obtain ⟨a, ea, -, va, ua⟩ := exists_lab w 50 10 20 (by norm_num) (by norm_num) (by norm_num)
  obtain ⟨b, eb, -, vb, ub⟩ := exists_lab w 60 (-10) 20 (by norm_num) (by norm_num) (by norm_num)
  have := C72_value w a b va vb _ _ _ _ _ _ ua ub
  norm_num at this
  exact ⟨a, b, b, ea, eb, C72_metric w a b b va vb vb, ua, this⟩

/-! ## C73 and C92: CIE94 and CMC -/

end

namespace DistSpec

/-- Chroma of a LAB colour. -/
noncomputable def chromaOf (a b : ℝ) : ℝ := Real.sqrt (a ^ 2 + b ^ 2)

/-- Squared CIE76 difference. -/
def e76sq (l a b l' a' b' : ℝ) : ℝ := (l - l') ^ 2 + (a - a') ^ 2 + (b - b') ^ 2

/-- The metric hue difference, squared: what is left of the CIE76 difference without the lightness and chroma differences. -/
noncomputable def hueDiffSq (l a b l' a' b' : ℝ) : ℝ := e76sq l a b l' a' b' - (l - l') ^ 2 - (chromaOf a b - chromaOf a' b') ^ 2

/-- The published CIE94 formula, https://en.wikipedia.org/wiki/Color_difference. -/
noncomputable def publishedCie94 (kL k1 k2 kC kH l a b l' a' b' : ℝ) : ℝ :=
  let sC := 1 + k1 * chromaOf a b
  let sH := 1 + k2 * chromaOf a b
  Real.sqrt (((l - l') / kL) ^ 2 + ((chromaOf a b - chromaOf a' b') / (kC * sC)) ^ 2 + hueDiffSq l a b l' a' b' / (kH * sH) ^ 2)

/-- The hue angle in degrees in [0, 360). -/
noncomputable def hueAngle (a b : ℝ) : ℝ := if 0 ≤ Complex.arg ⟨a, b⟩ then Complex.arg ⟨a, b⟩ / Real.pi * 180 else Complex.arg ⟨a, b⟩ / Real.pi * 180 + 360

/-- Cosine of an angle in degrees. -/
noncomputable def cosDeg (x : ℝ) : ℝ := Real.cos (x / 180 * Real.pi)

/-- The published CMC l:c formula, https://en.wikipedia.org/wiki/Color_difference. -/
noncomputable def publishedCmc (kl kc l a b l' a' b' : ℝ) : ℝ :=
  let C := chromaOf a b
  let h := hueAngle a b
  let sL := if l < 16 then 0.511 else 0.040975 * l / (1 + 0.01765 * l)
  let sC := 0.0638 * C / (1 + 0.0131 * C) + 0.638
  let F := Real.sqrt (C ^ 4 / (C ^ 4 + 1900))
  let T := if 164 ≤ h ∧ h ≤ 345 then 0.56 + |0.2 * cosDeg (h + 168)| else 0.36 + |0.4 * cosDeg (h + 35)|
  let sH := sC * (F * T + 1 - F)
  Real.sqrt (((l - l') / (kl * sL)) ^ 2 + ((C - chromaOf a' b') / (kc * sC)) ^ 2 + hueDiffSq l a b l' a' b' / sH ^ 2)

end DistSpec

section
variable [FloatModel] [ExactModel]

/-- C92 for CIE94: the value is that of the published formula. -/
theorem C92_cie94 (w : World) (p q : Color) (hp : Valid w .lab p) (hq : Valid w .lab q) (l a b l' a' b' kL k1 k2 kC kH : ℝ)
    (vp : View w p .lab l a b) (vq : View w q .lab l' a' b') (h0 : 0 < kL) (h1 : 0 ≤ k1) (h2 : 0 ≤ k2) (h3 : 0 < kC) (h4 : 0 < kH) :
    Measures (Distance.cielab_delta_e_cie94 (fin kL) (fin k1) (fin k2) (fin kC) (fin kH)) w p q (fin (publishedCie94 kL k1 k2 kC kH l a b l' a' b')) := by
  refine measures_of (by simp) hp hq vp vq fun p q ep eq => ?_
  rw [Distance.cie94_exact ep eq h0.ne' (by positivity) (by positivity)]
  have hh : hueDiffSq l a b l' a' b' = (a - a') ^ 2 + (b - b') ^ 2 - (Real.sqrt (a ^ 2 + b ^ 2) - Real.sqrt (a' ^ 2 + b' ^ 2)) ^ 2 := by
    simp only [hueDiffSq, e76sq, chromaOf]; ring
  have e : ∀ x s : ℝ, 0 ≤ x → (Real.sqrt x / s) ^ 2 = x / s ^ 2 := fun x s h => by rw [div_pow, Real.sq_sqrt h]
  rw [e _ _ (Distance.hue_part_nonneg a b a' b'), ← hh]
  rfl

/-- C92 for CMC, for all hues but exactly 164 degrees, where the published formula switches one step earlier. -/
theorem C92_cmc_partial (w : World) (p q : Color) (hp : Valid w .lab p) (hq : Valid w .lab q) (l a b l' a' b' kl kc : ℝ)
    (vp : View w p .lab l a b) (vq : View w q .lab l' a' b') (h0 : 0 < kl) (h1 : 0 < kc) (hn : hueAngle a b ≠ 164) :
    Measures (Distance.cmc_delta_e_lc84 (fin kl) (fin kc)) w p q (fin (publishedCmc kl kc l a b l' a' b')) := by
  refine measures_of (by simp) hp hq vp vq fun p q ep eq => ?_
  rw [Distance.cmc_exact ep eq h0.ne' h1.ne']
  have hh : hueDiffSq l a b l' a' b' = (a - a') ^ 2 + (b - b') ^ 2 - (Real.sqrt (a ^ 2 + b ^ 2) - Real.sqrt (a' ^ 2 + b' ^ 2)) ^ 2 := by
    simp only [hueDiffSq, e76sq, chromaOf]; ring
  have e : ∀ x s : ℝ, 0 ≤ x → (Real.sqrt x / s) ^ 2 = x / s ^ 2 := fun x s h => by rw [div_pow, Real.sq_sqrt h]
  have hH : hueAngle a b = Distance.hueR a b := by
    have hs : Complex.arg ⟨a, b⟩ * (180 / Real.pi) = Complex.arg ⟨a, b⟩ / Real.pi * 180 := by ring
    have hlt : Complex.arg ⟨a, b⟩ * (180 / Real.pi) < 0 ↔ ¬ 0 ≤ Complex.arg ⟨a, b⟩ := by
      rw [not_le]
      have : 0 < 180 / Real.pi := by have := Real.pi_pos; positivity
      constructor
      · intro h; by_contra hc; have := mul_nonneg (not_lt.mp hc) this.le; linarith
      · intro h; exact mul_neg_of_neg_of_pos h this
    unfold hueAngle Distance.hueR
    simp only [hlt, hs]
    split_ifs <;> simp_all
  have hT : Distance.tR (Distance.hueR a b) = if 164 ≤ hueAngle a b ∧ hueAngle a b ≤ 345 then 0.56 + |0.2 * cosDeg (hueAngle a b + 168)| else 0.36 + |0.4 * cosDeg (hueAngle a b + 35)| := by
    have : (164 < hueAngle a b ∧ hueAngle a b ≤ 345) ↔ (164 ≤ hueAngle a b ∧ hueAngle a b ≤ 345) :=
      ⟨fun h => ⟨h.1.le, h.2⟩, fun h => ⟨lt_of_le_of_ne h.1 (Ne.symm hn), h.2⟩⟩
    have hd : ∀ x : ℝ, x * (Real.pi / 180) = x / 180 * Real.pi := fun x => by ring
    rw [← hH]
    simp only [Distance.tR, this, cosDeg, hd]
  rw [e _ _ (Distance.hue_part_nonneg a b a' b'), ← hh, hT]
  rfl

/-- C73, CIE94: a non-negative number, zero exactly for equal LAB components. -/
theorem C73_cie94 (w : World) (p q : Color) (hp : Valid w .lab p) (hq : Valid w .lab q) (kL k1 k2 kC kH : ℝ) (h0 : 0 < kL) (h1 : 0 ≤ k1) (h2 : 0 ≤ k2) (h3 : 0 < kC)
    (h4 : 0 < kH) : ∃ d : ℝ, Measures (Distance.cielab_delta_e_cie94 (fin kL) (fin k1) (fin k2) (fin kC) (fin kH)) w p q (fin d) ∧ 0 ≤ d ∧ (d = 0 ↔ SameView w .lab p q) := by
  obtain ⟨l, a, b, vp, -⟩ := view_of_valid (by simp) rfl hp
  obtain ⟨l', a', b', vq, -⟩ := view_of_valid (by simp) rfl hq
  have hm := measures_of (f := Distance.cie94 (fin kL) (fin k1) (fin k2) (fin kC) (fin kH)) (by simp) hp hq vp vq fun p q ep eq =>
    Distance.cie94_exact ep eq h0.ne' (by positivity) (by positivity)
  refine ⟨_, hm, Real.sqrt_nonneg _, ?_⟩
  rw [sameView_iff (by simp) hp hq vp vq, Real.sqrt_eq_zero (by positivity)]
  exact Distance.three_zero h0.ne' (by positivity) (by positivity)

/-- C73, CMC. -/
theorem C73_cmc (w : World) (p q : Color) (hp : Valid w .lab p) (hq : Valid w .lab q) (kl kc : ℝ) (h0 : 0 < kl) (h1 : 0 < kc) :
    ∃ d : ℝ, Measures (Distance.cmc_delta_e_lc84 (fin kl) (fin kc)) w p q (fin d) ∧ 0 ≤ d ∧ (d = 0 ↔ SameView w .lab p q) := by
  obtain ⟨l, a, b, vp, -⟩ := view_of_valid (by simp) rfl hp
  obtain ⟨l', a', b', vq, -⟩ := view_of_valid (by simp) rfl hq
  have hm := measures_of (f := Distance.cmc (fin kl) (fin kc)) (by simp) hp hq vp vq fun p q ep eq => Distance.cmc_exact ep eq h0.ne' h1.ne'
  refine ⟨_, hm, Real.sqrt_nonneg _, ?_⟩
  rw [sameView_iff (by simp) hp hq vp vq, Real.sqrt_eq_zero (by positivity)]
  have hc := Real.sqrt_nonneg (a ^ 2 + b ^ 2)
  exact Distance.three_zero (mul_ne_zero h0.ne' (Distance.sLR_pos l).ne') (mul_ne_zero h1.ne' (Distance.sCR_pos hc).ne') (Distance.sHR_pos hc).ne'

/-- C73 and C92 on the default parameters (graphic arts) and on CMC 2:1. -/
example (w : World) : ∃ p q : Color, Color.construct .lab [fin 50, fin 0, fin 0] 1 none = ok p ∧ Color.construct .lab [fin 50, fin 10, fin 0] 1 none = ok q ∧
    (∃ d, Measures (Distance.cielab_delta_e_cie94 (fin 1) (fin 0.045) (fin 0.015) (fin 1) (fin 1)) w p q (fin d) ∧ 0 ≤ d) ∧
    (∃ d, Measures (Distance.cmc_delta_e_lc84 (fin 2) (fin 1)) w p q (fin d) ∧ 0 ≤ d) := by
  obtain ⟨p, ep, -, vp, up⟩ := exists_lab w 50 0 0 (by norm_num) (by norm_num) (by norm_num)
  obtain ⟨q, eq, -, vq, uq⟩ := exists_lab w 50 10 0 (by norm_num) (by norm_num) (by norm_num)
  obtain ⟨d, h1, h2, -⟩ := C73_cie94 w p q vp vq 1 0.045 0.015 1 1 (by norm_num) (by norm_num) (by norm_num) (by norm_num) (by norm_num)
  obtain ⟨d', h1', h2', -⟩ := C73_cmc w p q vp vq 2 1 (by norm_num) (by norm_num)
  exact ⟨p, q, ep, eq, ⟨d, h1, h2⟩, ⟨d', h1', h2'⟩⟩

/-! ## C74: symmetry -/

/-- C74 for CIEDE2000 and, see `C69_metric`, `C71_weighted`, `C72_metric`, the other distances below. -/
theorem C74_symmetric_partial (w : World) (p q : Color) :
    (Valid w .rgbDeep p → Valid w .rgbDeep q → ∀ space, space ≠ .cieluv →
      (∃ v, Measures (fun p q => Distance.euclidean_distance_squared p q space) w p q v ∧ Measures (fun p q => Distance.euclidean_distance_squared p q space) w q p v) ∧
      (∃ v, Measures (fun p q => Distance.euclidean_distance p q space) w p q v ∧ Measures (fun p q => Distance.euclidean_distance p q space) w q p v) ∧
      ∃ v, Measures Distance.euclidean_distance_weighted w p q v ∧ Measures Distance.euclidean_distance_weighted w q p v) ∧
    (Valid w .cieluv p → Valid w .cieluv q →
      ∃ v, Measures (fun p q => Distance.euclidean_distance_squared p q .cieluv) w p q v ∧ Measures (fun p q => Distance.euclidean_distance_squared p q .cieluv) w q p v) ∧
    (Valid w .lab p → Valid w .lab q →
      (∃ v, Measures Distance.cielab_delta_e_cie76 w p q v ∧ Measures Distance.cielab_delta_e_cie76 w q p v) ∧
      ∀ kL k1 k2 kC kH : ℝ, 0 < kL → 0 ≤ k1 → 0 ≤ k2 → 0 < kC → 0 < kH →
        ∃ v, Measures (Distance.cielab_delta_e_cie00 (fin kL) (fin k1) (fin k2) (fin kC) (fin kH)) w p q v ∧
          Measures (Distance.cielab_delta_e_cie00 (fin kL) (fin k1) (fin k2) (fin kC) (fin kH)) w q p v) := by
  refine ⟨fun hp hq space hs => ?_, fun hp hq => ?_, fun hp hq => ?_⟩
  · obtain ⟨x, y, z, va, -⟩ := view_of_valid (by simp) rfl hp
    obtain ⟨x', y', z', vb, -⟩ := view_of_valid (by simp) rfl hq
    have h1 := C69_value w p q hp hq _ _ _ _ _ _ va vb space hs
    have h2 := C69_value w q p hq hp _ _ _ _ _ _ vb va space hs
    obtain ⟨d, h3, h4, -⟩ := C71_weighted w p q hp hq
    have e := Distance.sq3_comm x y z x' y' z'
    simp only [Distance.sq3] at e
    rw [← e] at h2
    exact ⟨⟨_, h1.1, h2.1⟩, ⟨_, h1.2, h2.2⟩, ⟨_, h3, h4⟩⟩
  · obtain ⟨x, y, z, va, -⟩ := view_of_valid (by simp) rfl hp
    obtain ⟨x', y', z', vb, -⟩ := view_of_valid (by simp) rfl hq
    refine ⟨_, Distance.squared_luv hp hq va vb, ?_⟩
    rw [Distance.sq3_comm]
    exact Distance.squared_luv hq hp vb va
  · obtain ⟨x, y, z, va, -⟩ := view_of_valid (by simp) rfl hp
    obtain ⟨x', y', z', vb, -⟩ := view_of_valid (by simp) rfl hq
    refine ⟨?_, fun kL k1 k2 kC kH h0 h1 h2 h3 h4 => ?_⟩
    · obtain ⟨_, _, _, _, h1, h2, -, -, -, rfl, -⟩ := C72_metric w p q q hp hq hq
      exact ⟨_, h1, h2⟩
    · refine ⟨_, measures_of (by simp) hp hq va vb fun p q ep eq => Distance.cie00_exact ep eq h0 h1 h2 h3 h4, ?_⟩
      rw [Distance.de00_comm]
      exact measures_of (by simp) hq hp vb va fun p q ep eq => Distance.cie00_exact ep eq h0 h1 h2 h3 h4

/-- C74 fails for CIE94 and CMC, which weigh the differences by the chroma of the first colour only. -/
theorem C74_violated (w : World) : ∃ p q : Color, Color.construct .lab [fin 50, fin 0, fin 0] 1 none = ok p ∧ Color.construct .lab [fin 50, fin 10, fin 0] 1 none = ok q ∧
    (∃ v v', Measures (Distance.cielab_delta_e_cie94 (fin 1) (fin 0.045) (fin 0.015) (fin 1) (fin 1)) w p q (fin v) ∧
      Measures (Distance.cielab_delta_e_cie94 (fin 1) (fin 0.045) (fin 0.015) (fin 1) (fin 1)) w q p (fin v') ∧ v = 10 ∧ v' < 7) ∧
    (∃ v v', Measures (Distance.cmc_delta_e_lc84 (fin 1) (fin 1)) w p q (fin v) ∧ Measures (Distance.cmc_delta_e_lc84 (fin 1) (fin 1)) w q p (fin v') ∧ 15 < v ∧ v' < 9) := by
  obtain ⟨p, ep, -, hp, vp⟩ := exists_lab w 50 0 0 (by norm_num) (by norm_num) (by norm_num)
  obtain ⟨q, eq, -, hq, vq⟩ := exists_lab w 50 10 0 (by norm_num) (by norm_num) (by norm_num)
  have s10 : Real.sqrt ((10 : ℝ) ^ 2 + 0 ^ 2) = 10 := by
    rw [show (10 : ℝ) ^ 2 + 0 ^ 2 = 10 ^ 2 by norm_num]; exact Real.sqrt_sq (by norm_num)
  have s0 : Real.sqrt ((0 : ℝ) ^ 2 + 0 ^ 2) = 0 := by norm_num
  refine ⟨p, q, ep, eq, ⟨_, _, measures_of (by simp) hp hq vp vq fun p q ep eq => Distance.cie94_exact ep eq (by norm_num) (by rw [s0]; norm_num) (by rw [s0]; norm_num),
    measures_of (by simp) hq hp vq vp fun p q ep eq => Distance.cie94_exact ep eq (by norm_num) (by rw [s10]; norm_num) (by rw [s10]; norm_num), ?_, ?_⟩,
    ⟨_, _, measures_of (by simp) hp hq vp vq fun p q ep eq => Distance.cmc_exact ep eq (by norm_num) (by norm_num),
    measures_of (by simp) hq hp vq vp fun p q ep eq => Distance.cmc_exact ep eq (by norm_num) (by norm_num), ?_, ?_⟩⟩
  · rw [s10, s0]
    norm_num
    rw [show (100 : ℝ) = 10 ^ 2 by norm_num]; exact Real.sqrt_sq (by norm_num)
  · rw [s10, s0, Real.sqrt_lt' (by norm_num)]
    norm_num
  · rw [s10, s0, Real.lt_sqrt (by norm_num)]
    norm_num [Distance.sCR]
  · rw [s10, s0, Real.sqrt_lt' (by norm_num)]
    norm_num [Distance.sCR]

/-! ## C91: CIEDE2000 -/

/-- C91: for positive parameters the distance is a non-negative number; it is 0 for equal LAB components, and 0 only if lightness and chroma are equal.
Missing: 0 only for equal components, see `C91_violated`. -/
theorem C91_defined_partial (w : World) (p q : Color) (hp : Valid w .lab p) (hq : Valid w .lab q) (kL k1 k2 kC kH : ℝ) (h0 : 0 < kL) (h1 : 0 ≤ k1) (h2 : 0 ≤ k2)
    (h3 : 0 < kC) (h4 : 0 < kH) : ∃ d : ℝ, Measures (Distance.cielab_delta_e_cie00 (fin kL) (fin k1) (fin k2) (fin kC) (fin kH)) w p q (fin d) ∧ 0 ≤ d ∧
      (SameView w .lab p q → d = 0) ∧ (d = 0 → ∀ l a b l' a' b', View w p .lab l a b → View w q .lab l' a' b' → l = l' ∧ chromaOf a b = chromaOf a' b') := by
  obtain ⟨l, a, b, vp, -⟩ := view_of_valid (by simp) rfl hp
  obtain ⟨l', a', b', vq, -⟩ := view_of_valid (by simp) rfl hq
  refine ⟨_, measures_of (by simp) hp hq vp vq fun p q ep eq => Distance.cie00_exact ep eq h0 h1 h2 h3 h4, Real.sqrt_nonneg _, ?_, ?_⟩
  · intro h
    obtain ⟨rfl, rfl, rfl⟩ := (sameView_iff (by simp) hp hq vp vq).mp h
    rw [Distance.de00_self, Real.sqrt_zero]
  · intro h m x y m' x' y' up uq
    obtain ⟨rfl, rfl, rfl⟩ := view_unique (by simp) hp.def_ hp.col up vp
    obtain ⟨rfl, rfl, rfl⟩ := view_unique (by simp) hq.def_ hq.col uq vq
    exact Distance.de00_zero h0 h1 h2 h3 h h4

/-- C91 fails: hues are cut to whole degrees, so different colours, even on different sides of the a axis, have distance 0. -/
theorem C91_violated (w : World) : ∃ p q : Color, Color.construct .lab [fin 50, fin 100, fin 1] 1 none = ok p ∧ Color.construct .lab [fin 50, fin 100, fin (-1)] 1 none = ok q ∧
    Measures (Distance.cielab_delta_e_cie00 (fin 1) (fin 0.045) (fin 0.015) (fin 1) (fin 1)) w p q (fin 0) ∧ ¬ SameView w .lab p q := by
  obtain ⟨p, ep, -, hp, vp⟩ := exists_lab w 50 100 1 (by norm_num) (by norm_num) (by norm_num)
  obtain ⟨q, eq, -, hq, vq⟩ := exists_lab w 50 100 (-1) (by norm_num) (by norm_num) (by norm_num)
  refine ⟨p, q, ep, eq, ?_, ?_⟩
  · have := measures_of (f := Distance.cie00 (fin 1) (fin 0.045) (fin 0.015) (fin 1) (fin 1)) (by simp) hp hq vp vq fun p q ep eq =>
      Distance.cie00_exact ep eq (by norm_num) (by norm_num) (by norm_num) (by norm_num) (by norm_num)
    rwa [Distance.de00_mirror, Real.sqrt_zero] at this
  · rw [sameView_iff (by simp) hp hq vp vq]
    norm_num

end

/-! ## C90: distances leave the colours alone -/

section
variable [FloatModel]

theorem Distance.between_frame {s s' t : ColorType} (hs : s ≠ .undefined) (hs' : s' ≠ .undefined) (ht : t ≠ .undefined) {f : Color → Color → Outcome Fl} {h h' : Heap} {i j : Nat}
    {a b : Color} (ha : h.colors[i]? = some a) (hb : h.colors[j]? = some b) (hca : IsColor s a) (hcb : IsColor s' b) (na : ¬ (s = .rgbDeep ∧ Cie t))
    (nb : ¬ (s' = .rgbDeep ∧ Cie t)) {v : Fl} (e : Distance.between (Conv.dispatcher t) f (some i) (some j) h = (ok v, h')) : Frame h h' := by
  have refl : Frame h h := ⟨rfl, fun _ _ h => h⟩
  by_cases hij : (some i : Ptr) = some j
  · simp only [Distance.between, if_pos hij, Prog.pure_run, Prod.mk.injEq] at e
    exact e.2 ▸ refl
  · simp only [Distance.between, if_neg hij, Prog.bind_def] at e
    rcases e1 : Conv.dispatcher t (some i) h with ⟨o1, h1⟩
    rw [e1] at e
    cases o1 with
    | throw _ => simp at e
    | ub => simp at e
    | ok q1 =>
      have f1 := C34_unmodified_partial s t hs ht na h i a ha hca q1 h1 e1
      simp only at e
      rcases e2 : Conv.dispatcher t (some j) h1 with ⟨o2, h2⟩
      rw [e2] at e
      cases o2 with
      | throw _ => simp at e
      | ub => simp at e
      | ok q2 =>
        have f2 := C34_unmodified_partial s' t hs' ht nb h1 j b (f1.2 j b hb) hcb q2 h2 e2
        have f12 := f1.trans f2
        simp only at e
        split_ifs at e
        · simp only [Prog.pure_run, Prod.mk.injEq] at e
          exact e.2 ▸ f12
        · have key : ∀ q : Ptr, ∀ (o : Outcome Color) (k : Heap), load q h2 = (o, k) → k = h2 := by
            intro q o k hk
            unfold load at hk
            split at hk <;> (try split at hk) <;> exact (congrArg Prod.snd hk).symm
          simp only [Prog.bind_def] at e
          rcases l1 : load q1 h2 with ⟨o3, h3⟩
          obtain rfl := key _ _ _ l1
          rw [l1] at e
          cases o3 with
          | throw _ => simp at e
          | ub => simp at e
          | ok c1 =>
            simp only at e
            rcases l2 : load q2 h3 with ⟨o4, h4⟩
            obtain rfl := key _ _ _ l2
            rw [l2] at e
            cases o4 with
            | throw _ => simp at e
            | ub => simp at e
            | ok c2 =>
              simp only [lift, Prod.mk.injEq] at e
              exact e.2 ▸ f12

/-- C90 for the RGB distances on all colours, and for the LAB and CIELUV distances on colours that are not RGB_DEEP, in every rounding. -/
theorem C90_unmodified_partial (h h' : Heap) (i j : Nat) (a b : Color) (v : Fl) (k1 k2 k3 k4 k5 : Fl) (ha : h.colors[i]? = some a) (hb : h.colors[j]? = some b)
    (hda : a.ctype ≠ .undefined) (hdb : b.ctype ≠ .undefined) (hca : IsColor a.ctype a) (hcb : IsColor b.ctype b) :
    ((∃ space, space ≠ .cieluv ∧ Distance.euclidean_distance_squared (some i) (some j) space h = (ok v, h')) ∨
      (∃ space, space ≠ .cieluv ∧ Distance.euclidean_distance (some i) (some j) space h = (ok v, h')) ∨
      Distance.euclidean_distance_weighted (some i) (some j) h = (ok v, h') → Frame h h') ∧
    (a.ctype ≠ .rgbDeep → b.ctype ≠ .rgbDeep → (Distance.euclidean_distance_squared (some i) (some j) .cieluv h = (ok v, h') ∨
      Distance.cielab_delta_e_cie76 (some i) (some j) h = (ok v, h') ∨ Distance.cielab_delta_e_cie94 k1 k2 k3 k4 k5 (some i) (some j) h = (ok v, h') ∨
      Distance.cielab_delta_e_cie00 k1 k2 k3 k4 k5 (some i) (some j) h = (ok v, h') ∨ Distance.cmc_delta_e_lc84 k1 k2 (some i) (some j) h = (ok v, h')) → Frame h h') := by
  have refl : Frame h h := ⟨rfl, fun _ _ h => h⟩
  have hr : ∀ c : Color, ¬ (c.ctype = .rgbDeep ∧ Cie .rgbDeep) := fun c hc => by simp [Cie] at hc
  have sq : ∀ space, space ≠ .cieluv → ∀ v, Distance.euclidean_distance_squared (some i) (some j) space h = (ok v, h') → Frame h h' := by
    intro space hs v e
    simp only [Distance.euclidean_distance_squared, if_neg hs] at e
    split_ifs at e
    · simp only [Prog.pure_run, Prod.mk.injEq] at e
      exact e.2 ▸ refl
    · exact Distance.between_frame (t := .rgbDeep) hda hdb (by simp) ha hb hca hcb (hr a) (hr b) e
  refine ⟨?_, fun na nb => ?_⟩
  · rintro (⟨space, hs, e⟩ | ⟨space, hs, e⟩ | e)
    · exact sq space hs v e
    · simp only [Distance.euclidean_distance] at e
      split_ifs at e
      · simp only [Prog.pure_run, Prod.mk.injEq] at e
        exact e.2 ▸ refl
      · simp only [Prog.bind_def] at e
        rcases e1 : Distance.euclidean_distance_squared (some i) (some j) .rgbDeep h with ⟨o, h1⟩
        rw [e1] at e
        cases o with
        | throw _ => simp at e
        | ub => simp at e
        | ok u =>
          simp only [Prog.pure_run, Prod.mk.injEq] at e
          rw [e.2] at e1
          exact sq .rgbDeep (by simp) u e1
    · exact Distance.between_frame (t := .rgbDeep) hda hdb (by simp) ha hb hca hcb (hr a) (hr b) e
  · have na' : ∀ t, ¬ (a.ctype = .rgbDeep ∧ Cie t) := fun t hc => na hc.1
    have nb' : ∀ t, ¬ (b.ctype = .rgbDeep ∧ Cie t) := fun t hc => nb hc.1
    rintro (e | e | e | e | e)
    · simp only [Distance.euclidean_distance_squared, if_true] at e
      split_ifs at e
      · simp only [Prog.pure_run, Prod.mk.injEq] at e
        exact e.2 ▸ refl
      · exact Distance.between_frame (t := .cieluv) hda hdb (by simp) ha hb hca hcb (na' _) (nb' _) e
    all_goals exact Distance.between_frame (t := .lab) hda hdb (by simp) ha hb hca hcb (na' _) (nb' _) e

end

/-- C90 fails for RGB_DEEP colours: measuring the CIE76 distance of mid grey and black darkens the grey. -/
theorem C90_violated [StdSort] [FloatModel] [ExactModel] : ∃ (w : World) (a b d : Color) (v : Fl) (h' : Heap),
    Color.construct .rgbDeep [fin 0.5, fin 0.5, fin 0.5] 1 (some 0) = ok a ∧ Color.construct .rgbDeep [0, 0, 0] 1 (some 0) = ok b ∧
    Distance.cielab_delta_e_cie76 (some 0) (some 1) ⟨w, [a, b]⟩ = (ok v, h') ∧ h'.colors[0]? = some d ∧ ∃ x : ℝ, x < 0.3 ∧ d.comps = [fin x, fin x, fin x] := by
  obtain ⟨w, hw, hg, -, -, -, -, hcurve⟩ := exists_world .sRGB .g2_2
  have hc : Color.clamp (fin 0.5) 1 0 = fin 0.5 := Conv.clamp_unit (by norm_num) (by norm_num)
  have ea : Color.construct .rgbDeep [fin 0.5, fin 0.5, fin 0.5] 1 (some 0) = ok (Color.mkRgbDeep (fin 0.5) (fin 0.5) (fin 0.5) 1 (some 0)) :=
    Color.construct_rgbDeep _ _ _ _ _
  set a := Color.mkRgbDeep (fin 0.5) (fin 0.5) (fin 0.5) 1 (some 0) with hadef
  have hfa := Conv.construct_result (t := .rgbDeep) (by simp) rfl ea
  obtain ⟨b, eb⟩ := Conv.construct_total .rgbDeep (vs := [0, 0, 0]) 1 (some 0) rfl
  have hfb := Conv.construct_result (t := .rgbDeep) (by simp) rfl eb
  have val : ∀ c, Conv.Fresh .rgbDeep (some 0) c → Valid w .lab c := fun c hf =>
    ⟨by rw [hf.col.ctype]; simp, by rw [hf.col.ctype]; exact hf.col, hf.rng, fun _ _ => hf.space ▸ hw⟩
  have va := val a hfa
  have vb := val b hfb
  obtain ⟨x, y, z, ua, -⟩ := view_of_valid (by simp) rfl va
  obtain ⟨x', y', z', ub, -⟩ := view_of_valid (by simp) rfl vb
  obtain ⟨a', eva, -⟩ := Distance.view_val (by simp) va.def_ va.col ua
  obtain ⟨b', evb, -⟩ := Distance.view_val (by simp) vb.def_ vb.col ub
  have hm := C72_value w a b va vb _ _ _ _ _ _ ua ub
  obtain ⟨h', e', hw', hoth⟩ := hm ⟨w, [a, b]⟩ 0 1 rfl (by simp) rfl rfl
  rw [hfa.col.ctype] at eva
  rw [hfb.col.ctype] at evb
  obtain ⟨q1, h1, e1, c1⟩ := call_to (h := ⟨w, [a, b]⟩) (i := 0) (by simp) (by simp) hfa.col rfl eva
  have hd := C34_rgb_deep_to_cie .lab (by simp [Cie]) ⟨w, [a, b]⟩ 0 a rfl hfa.col 0 0 hfa.space hg (some q1) h1 e1
  have hb1 := c1.others 1 b (by simp) rfl
  have evb' : Val.to .rgbDeep .lab h1.world b = ok b' := by rw [c1.world]; exact evb
  obtain ⟨q2, h2, e2, c2⟩ := call_to (by simp) (by simp) hfb.col hb1 evb'
  have h2' : h2 = h' := by
    have hq : q1 ≠ q2 := by
      have l1 : 2 ≤ q1 := by
        rcases c1.fresh with hh | hh
        · exact absurd hh.2.2.2 (by rw [hfa.col.ctype]; simp)
        · simpa using hh.1
      have l2 : h1.colors.length ≤ q2 := by
        rcases c2.fresh with hh | hh
        · exact absurd hh.2.2.2 (by rw [hfb.col.ctype]; simp)
        · exact hh.1
      have := (List.getElem?_eq_some_iff.mp c1.here).1
      omega
    have e3 : Converter.to_lab (some 0) ⟨w, [a, b]⟩ = (ok (some q1), h1) := e1
    have e4 : Converter.to_lab (some 1) h1 = (ok (some q2), h2) := e2
    have hq1 := c2.others q1 a' (by
      intro hq1
      rcases c1.fresh with hh | hh
      · omega
      · have := hh.1; simp [hq1] at this) c1.here
    simp only [Distance.cielab_delta_e_cie76, Distance.between, Prog.bind_def, e3, e4, if_neg hq, load, hq1, c2.here, lift, reduceCtorEq, Option.some.injEq, zero_ne_one, if_false] at e'
    exact congrArg Prod.snd e'
  subst h2'
  refine ⟨w, a, b, _, _, h2, ea, eb, e', c2.others 0 _ (by simp) hd.2.2, (0.5 : ℝ) ^ (11/5 : ℝ), ?_, ?_⟩
  · have := GammaPreset.rpow_lt_of_pow (a := 0.5) (b := 0.3) (m := 11) (n := 5) (by norm_num) (by norm_num) (by norm_num) (by norm_num)
    simpa using this
  · have hx : (w.gammas 0).inverse w.parts (fin 0.5) = fin ((0.5 : ℝ) ^ (11/5 : ℝ)) := by
      rw [(hcurve _).2, (GammaPreset.eval_power (p := .g2_2) (by simp [GammaPreset.IsPower]) (by norm_num) (by norm_num)).2]; rfl
    have hu := GammaPreset.pow_unit (x := 0.5) (a := 11/5) (by norm_num) (by norm_num) (by norm_num)
    simp only [hadef, Color.mkRgbDeep, hc, List.map_cons, List.map_nil, hx, Conv.clamp_unit hu.1 hu.2]

/-- The hypotheses of C90 can be met: the RGB distance of an RGB_DEEP colour and an HSV colour. -/
example [FloatModel] [ExactModel] (w : World) : ∃ (a b : Color) (v : Fl) (h' : Heap), Color.construct .rgbDeep [1, 0, 0] 1 none = ok a ∧ Color.construct .hsv [fin 120, 1, 1] 1 none = ok b ∧
    Distance.euclidean_distance (some 0) (some 1) .rgbDeep ⟨w, [a, b]⟩ = (ok v, h') ∧ Frame ⟨w, [a, b]⟩ h' := by
  obtain ⟨a, ea⟩ := Conv.construct_total .rgbDeep (vs := [1, 0, 0]) 1 none rfl
  have ha := Conv.construct_result (t := .rgbDeep) (by simp) rfl ea
  obtain ⟨b, eb⟩ := Conv.construct_total .hsv (vs := [fin 120, 1, 1]) 1 none rfl
  have hb := Conv.construct_result (t := .hsv) (by simp) rfl eb
  have va : Valid w .rgbDeep a := valid_own (by simp) ha.col ha.rng
  have vb : Valid w .rgbDeep b := ⟨by rw [hb.col.ctype]; simp, by rw [hb.col.ctype]; exact hb.col, hb.rng, fun _ h => by simp [hb.col.ctype, Cie] at h⟩
  obtain ⟨d, -, -, -, hd, -⟩ := C69_metric w a b a va vb va .rgbDeep (by simp)
  obtain ⟨h', e, -⟩ := hd ⟨w, [a, b]⟩ 0 1 rfl (by simp) rfl rfl
  exact ⟨a, b, _, h', ea, eb, e, (C90_unmodified_partial _ h' 0 1 a b _ 0 0 0 0 0 rfl rfl va.def_ vb.def_ va.col vb.col).1 (Or.inr (Or.inl ⟨_, by simp, e⟩))⟩
