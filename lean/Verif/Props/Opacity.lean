import Verif.ConvBlind
import Verif.Props.Distances
import Verif.Props.Calculation

/-!
# C128, C129: the opacity of a colour has no influence on its conversions and distances
-/

open Outcome Fl Prog ObjectSpec ConvSpec BlendSpec DistSpec CalcSpec Calc

namespace OpacitySpec

/-- The same colour with another opacity. -/
structure SameColor (c d : Color) : Prop where
  cls : c.cls = d.cls
  ctype : c.ctype = d.ctype
  comps : c.comps = d.comps
  maxv : c.maxv = d.maxv
  minv : c.minv = d.minv
  space : c.space = d.space

/-- Two calls that return a colour end alike: with the same colour up to its opacity, with the same exception, or both undefined. -/
def EndAlike : Outcome Ptr × Heap → Outcome Ptr × Heap → Prop
  | (ok (some p), h), (ok (some q), g) => ∃ c d, h.colors[p]? = some c ∧ g.colors[q]? = some d ∧ SameColor c d
  | (Outcome.throw e, _), (Outcome.throw e', _) => e = e'
  | (ub, _), (ub, _) => True
  | _, _ => False

end OpacitySpec

open OpacitySpec

section
variable [FloatModel]

namespace Conv

omit [FloatModel] in
theorem strip_iff {c d : Color} : strip c = strip d ↔ SameColor c d := by
  obtain ⟨_, _, _, _, _, _, _⟩ := c
  obtain ⟨_, _, _, _, _, _, _⟩ := d
  simp only [strip, Color.mk.injEq]
  constructor
  · rintro ⟨h1, h2, h3, -, h4, h5, h6⟩
    exact ⟨h1, h2, h3, h4, h5, h6⟩
  · rintro ⟨h1, h2, h3, h4, h5, h6⟩
    exact ⟨h1, h2, h3, trivial, h4, h5, h6⟩

omit [FloatModel] in
theorem sameColor_isColor {s : ColorType} {c d : Color} (e : SameColor c d) (hc : IsColor s c) : IsColor s d :=
  ⟨e.cls ▸ hc.cls, e.ctype ▸ hc.ctype, e.comps ▸ hc.len, e.maxv ▸ hc.maxv, e.minv ▸ hc.minv⟩

theorem smap_to (s t : ColorType) (w : World) {c d : Color} (e : SameColor c d) : smap (Val.to s t w c) = smap (Val.to s t w d) := by
  unfold Val.to
  split
  · simp only [smap, strip_iff.mpr e]
  · exact (blind_conv s t).eq (strip_iff.mpr e)

theorem to_same {s t : ColorType} {w : World} {c d c' : Color} (e : SameColor c d) (h : Val.to s t w c = ok c') : ∃ d', Val.to s t w d = ok d' ∧ SameColor c' d' := by
  have hs := smap_to s t w e
  rw [h] at hs
  cases hd : Val.to s t w d with
  | ok d' => rw [hd] at hs; exact ⟨d', rfl, strip_iff.mp (by simpa [smap] using hs)⟩
  | throw e => rw [hd] at hs; simp [smap] at hs
  | ub => rw [hd] at hs; simp [smap] at hs

end Conv

/-- C128: a conversion does not look at the opacity.  Two objects of any class that differ in nothing but their opacity, wherever they are stored, give two results that differ in
nothing but their opacity, or the same exception; for every pair of types, every rounding and every world. -/
theorem C128_conversion (s t : ColorType) (hs : s ≠ .undefined) (ht : t ≠ .undefined) (h g : Heap) (i j : Nat) (c d : Color) (hw : g.world = h.world) (hc : h.colors[i]? = some c)
    (hd : g.colors[j]? = some d) (col : IsColor s c) (e : SameColor c d) : EndAlike (Conv.dispatcher t (some i) h) (Conv.dispatcher t (some j) g) := by
  have col' := Conv.sameColor_isColor e col
  by_cases hst : s = t
  · subst hst
    rw [Conv.dispatcher_same s hs h i c hc col.cls col.ctype, Conv.dispatcher_same s hs g j d hd col'.cls col'.ctype]
    exact ⟨c, d, hc, hd, e⟩
  · have h1 := Conv.dispatcher_spec s t hs ht hst h i c hc col
    have h2 := Conv.dispatcher_spec s t hs ht hst g j d hd col'
    have hb := (Conv.blind_conv s t).eq (w := h.world) (Conv.strip_iff.mpr e)
    rw [hw] at h2
    cases hv : Val.conv s t h.world c with
    | ok x =>
      cases hv' : Val.conv s t h.world d with
      | ok y =>
        rw [hv] at h1 hb
        rw [hv'] at h2 hb
        obtain ⟨ext, h1⟩ := h1
        obtain ⟨ext', h2⟩ := h2
        rw [h1, h2]
        exact ⟨x, y, by simp [List.getElem?_append_right], by simp [List.getElem?_append_right], Conv.strip_iff.mp (by simpa [Conv.smap] using hb)⟩
      | throw e' => rw [hv, hv'] at hb; simp [Conv.smap] at hb
      | ub => rw [hv, hv'] at hb; simp [Conv.smap] at hb
    | throw e1 =>
      cases hv' : Val.conv s t h.world d with
      | ok y => rw [hv, hv'] at hb; simp [Conv.smap] at hb
      | throw e2 =>
        rw [hv] at h1 hb
        rw [hv'] at h2 hb
        obtain ⟨ext, h1⟩ := h1
        obtain ⟨ext', h2⟩ := h2
        rw [h1, h2]
        show e1 = e2
        simpa [Conv.smap] using hb
      | ub => rw [hv, hv'] at hb; simp [Conv.smap] at hb
    | ub =>
      cases hv' : Val.conv s t h.world d with
      | ok y => rw [hv, hv'] at hb; simp [Conv.smap] at hb
      | throw e2 => rw [hv, hv'] at hb; simp [Conv.smap] at hb
      | ub =>
        rw [hv] at h1
        rw [hv'] at h2
        obtain ⟨h', h1⟩ := h1
        obtain ⟨g', h2⟩ := h2
        rw [h1, h2]
        trivial

/-- A case of C128: a half transparent and an opaque red, converted to HSV. -/
example (w : World) : EndAlike (Conv.dispatcher .hsv (some 0) ⟨w, [⟨.rgbDeep, .rgbDeep, [1, 0, 0], fin 0.5, 1, 0, none⟩]⟩)
    (Conv.dispatcher .hsv (some 0) ⟨w, [⟨.rgbDeep, .rgbDeep, [1, 0, 0], 1, 1, 0, none⟩]⟩) :=
  C128_conversion .rgbDeep .hsv (by simp) (by simp) _ _ 0 0 _ _ rfl rfl rfl ⟨rfl, rfl, rfl, rfl, rfl⟩ ⟨rfl, rfl, rfl, rfl, rfl, rfl⟩

/-! ## C129 -/

namespace Distance

/-- `between` on two objects: whatever `f` says about the converted colours. -/
theorem between_run {s s' t : ColorType} (hs : s ≠ .undefined) (hs' : s' ≠ .undefined) (ht : t ≠ .undefined) {w : World} {a b a' b' : Color}
    (ha : IsColor s a) (hb : IsColor s' b) (va : Val.to s t w a = ok a') (vb : Val.to s' t w b = ok b') (f : Color → Color → Outcome Fl) (h : Heap) (i j : Nat) (hw : h.world = w)
    (hij : i ≠ j) (hi : h.colors[i]? = some a) (hj : h.colors[j]? = some b) : ∃ h', between (Conv.dispatcher t) f (some i) (some j) h = (f a' b', h') := by
  subst hw
  obtain ⟨q1, h1, e1, c1⟩ := call_to hs ht ha hi va
  have hj1 := c1.others j b (Ne.symm hij) hj
  rw [← c1.world] at vb
  obtain ⟨q2, h2, e2, c2⟩ := call_to hs' ht hb hj1 vb
  have hjl : j < h.colors.length := (List.getElem?_eq_some_iff.mp hj).1
  have hil : i < h.colors.length := (List.getElem?_eq_some_iff.mp hi).1
  have hq1l : q1 < h1.colors.length := (List.getElem?_eq_some_iff.mp c1.here).1
  have hg := c1.grows
  have hq1j : q1 ≠ j := by
    rcases c1.fresh with hh | hh
    · rw [hh.1]; exact hij
    · omega
  have hq : q1 ≠ q2 := by
    rcases c2.fresh with hh | hh
    · rw [hh.1]; exact hq1j
    · omega
  refine ⟨h2, ?_⟩
  have hne : (some i : Ptr) ≠ some j := by simpa using hij
  have hne' : (some q1 : Ptr) ≠ some q2 := by simpa using hq
  simp only [between, if_neg hne, Prog.bind_def, e1, e2, if_neg hne', load, c2.others q1 a' hq1j c1.here, c2.here, lift]

/-- `f` reads nothing but the components. -/
def Reads (f : Color → Color → Outcome Fl) : Prop := ∀ a b a' b' : Color, a.comps = a'.comps → b.comps = b'.comps → f a b = f a' b'

theorem reads_squares : Reads fun a b => squares a b a.comps.length 0 0 := by
  have key : ∀ (a b a' b' : Color), a.comps = a'.comps → b.comps = b'.comps → ∀ n i s, squares a b n i s = squares a' b' n i s := by
    intro a b a' b' ea eb n
    induction n with
    | zero => intros; rfl
    | succ n ih => intro i s; simp only [squares, ea, eb, ih]
  intro a b a' b' ea eb
  simp only [key a b a' b' ea eb, ea]

omit [FloatModel] in
theorem get_of_comps {a a' : Color} (e : a.comps = a'.comps) (i : Int) : a.getComponent i = a'.getComponent i := by simp only [Color.getComponent, e]

theorem reads_cie76 : Reads cie76 := fun a b a' b' ea eb => by
  have := reads_squares a b a' b' ea eb
  simp only [cie76] at this ⊢
  rw [this]

theorem reads_weighted : Reads weighted := fun a b a' b' ea eb => by simp only [weighted, get_of_comps ea, get_of_comps eb]

theorem reads_cie94 (k1 k2 k3 k4 k5 : Fl) : Reads (cie94 k1 k2 k3 k4 k5) := fun a b a' b' ea eb => by simp only [cie94, get_of_comps ea, get_of_comps eb]

theorem reads_cie00 (k1 k2 k3 k4 k5 : Fl) : Reads (cie00 k1 k2 k3 k4 k5) := fun a b a' b' ea eb => by simp only [cie00, get_of_comps ea, get_of_comps eb]

theorem reads_cmc (k1 k2 : Fl) : Reads (cmc k1 k2) := fun a b a' b' ea eb => by simp only [cmc, get_of_comps ea, get_of_comps eb]

/-- Opacity and distance. -/
theorem between_same {t : ColorType} (ht : t ≠ .undefined) {f : Color → Color → Outcome Fl} (hf : Reads f) {w : World} {a b a' b' : Color} (ha : Valid w t a) (hb : Valid w t b)
    (ea : SameColor a a') (eb : SameColor b b') {v : Fl} (h : Measures (between (Conv.dispatcher t) f) w a b v) : Measures (between (Conv.dispatcher t) f) w a' b' v := by
  obtain ⟨x, hx, cx, -⟩ := val_to_total ha.def_ ht ha.col (fun h n => ha.space n h)
  obtain ⟨y, hy, cy, -⟩ := val_to_total hb.def_ ht hb.col (fun h n => hb.space n h)
  obtain ⟨x', hx', ex⟩ := Conv.to_same ea hx
  obtain ⟨y', hy', ey⟩ := Conv.to_same eb hy
  obtain ⟨g, e1, -⟩ := h ⟨w, [a, b]⟩ 0 1 rfl (by simp) rfl rfl
  obtain ⟨g', e2⟩ := between_run ha.def_ hb.def_ ht ha.col hb.col hx hy f ⟨w, [a, b]⟩ 0 1 rfl (by simp) rfl rfl
  rw [e1] at e2
  have hv : f x y = ok v := (congrArg Prod.fst e2).symm
  rw [hf x y x' y' ex.comps ey.comps] at hv
  exact (between_measures ha.def_ hb.def_ ht (Conv.sameColor_isColor ea ha.col) (Conv.sameColor_isColor eb hb.col) hx' hy' hv).1

end Distance

/-- C129: no distance depends on the opacity of the colours.  For all seven distances, with any parameters, and every rounding: what the function says about two colours it also says
about the same colours with any other opacities. -/
theorem C129_distance (w : World) (a b a' b' : Color) (ea : SameColor a a') (eb : SameColor b b') (v : Fl) (k1 k2 k3 k4 k5 : Fl) :
    (Valid w .rgbDeep a → Valid w .rgbDeep b →
      (∀ space, space ≠ .cieluv → Measures (fun p q => Distance.euclidean_distance_squared p q space) w a b v → Measures (fun p q => Distance.euclidean_distance_squared p q space) w a' b' v) ∧
      (∀ space, Measures (fun p q => Distance.euclidean_distance p q space) w a b v → Measures (fun p q => Distance.euclidean_distance p q space) w a' b' v) ∧
      (Measures Distance.euclidean_distance_weighted w a b v → Measures Distance.euclidean_distance_weighted w a' b' v)) ∧
    (Valid w .cieluv a → Valid w .cieluv b →
      (Measures (fun p q => Distance.euclidean_distance_squared p q .cieluv) w a b v → Measures (fun p q => Distance.euclidean_distance_squared p q .cieluv) w a' b' v)) ∧
    (Valid w .lab a → Valid w .lab b →
      (Measures Distance.cielab_delta_e_cie76 w a b v → Measures Distance.cielab_delta_e_cie76 w a' b' v) ∧
      (Measures (Distance.cielab_delta_e_cie94 k1 k2 k3 k4 k5) w a b v → Measures (Distance.cielab_delta_e_cie94 k1 k2 k3 k4 k5) w a' b' v) ∧
      (Measures (Distance.cielab_delta_e_cie00 k1 k2 k3 k4 k5) w a b v → Measures (Distance.cielab_delta_e_cie00 k1 k2 k3 k4 k5) w a' b' v) ∧
      (Measures (Distance.cmc_delta_e_lc84 k1 k2) w a b v → Measures (Distance.cmc_delta_e_lc84 k1 k2) w a' b' v)) := by
  have sq : ∀ (space : ColorType), space ≠ .cieluv → ∀ i j : Nat, i ≠ j → Distance.euclidean_distance_squared (some i) (some j) space =
      Distance.between (Conv.dispatcher .rgbDeep) (fun a b => Distance.squares a b a.comps.length 0 0) (some i) (some j) := by
    intro space hs i j hij
    rw [Distance.euclidean_distance_squared, if_neg (by simpa using hij), if_neg hs]; rfl
  have sqv : ∀ {w : World} {a b : Color} {v : Fl} {space : ColorType}, space ≠ .cieluv →
      (Measures (fun p q => Distance.euclidean_distance_squared p q space) w a b v ↔ Measures (Distance.between (Conv.dispatcher .rgbDeep) (fun a b => Distance.squares a b a.comps.length 0 0)) w a b v) :=
    fun hs => ⟨fun h => Distance.measures_congr h fun i j hij => (sq _ hs i j hij).symm, fun h => Distance.measures_congr h fun i j hij => sq _ hs i j hij⟩
  have luv : ∀ {w : World} {a b : Color} {v : Fl},
      (Measures (fun p q => Distance.euclidean_distance_squared p q .cieluv) w a b v ↔ Measures (Distance.between (Conv.dispatcher .cieluv) (fun a b => Distance.squares a b a.comps.length 0 0)) w a b v) := by
    have e : ∀ i j : Nat, i ≠ j → Distance.euclidean_distance_squared (some i) (some j) .cieluv =
      Distance.between (Conv.dispatcher .cieluv) (fun a b => Distance.squares a b a.comps.length 0 0) (some i) (some j) := by
      intro i j hij
      rw [Distance.euclidean_distance_squared, if_neg (by simpa using hij), if_pos rfl]; rfl
    exact fun {w a b v} => ⟨fun h => Distance.measures_congr h fun i j hij => (e i j hij).symm, fun h => Distance.measures_congr h fun i j hij => e i j hij⟩
  refine ⟨fun ha hb => ⟨fun space hs h => ?_, fun space h => ?_, fun h => ?_⟩, fun ha hb h => ?_, fun ha hb => ⟨fun h => ?_, fun h => ?_, fun h => ?_, fun h => ?_⟩⟩
  · exact (sqv hs).mpr (Distance.between_same (by simp) Distance.reads_squares ha hb ea eb ((sqv hs).mp h))
  · -- the root of the squared distance of the two colours
    intro g i j hw hij hi hj
    obtain ⟨x, hx, cx, -⟩ := val_to_total ha.def_ (by simp : ColorType.rgbDeep ≠ .undefined) ha.col (fun h n => ha.space n h)
    obtain ⟨y, hy, cy, -⟩ := val_to_total hb.def_ (by simp : ColorType.rgbDeep ≠ .undefined) hb.col (fun h n => hb.space n h)
    obtain ⟨x', hx', ex⟩ := Conv.to_same ea hx
    obtain ⟨y', hy', ey⟩ := Conv.to_same eb hy
    obtain ⟨g1, e1, -⟩ := h ⟨w, [a, b]⟩ 0 1 rfl (by simp) rfl rfl
    obtain ⟨g2, e2⟩ := Distance.between_run ha.def_ hb.def_ (by simp) ha.col hb.col hx hy (fun a b => Distance.squares a b a.comps.length 0 0) ⟨w, [a, b]⟩ 0 1 rfl (by simp) rfl rfl
    have hd : ∀ i j : Nat, i ≠ j → ∀ g, Distance.euclidean_distance (some i) (some j) space g =
        (Distance.between (Conv.dispatcher .rgbDeep) (fun a b => Distance.squares a b a.comps.length 0 0) (some i) (some j) >>= fun d => pure (Fl.sqrt d)) g := by
      intro i j hij g
      rw [Distance.euclidean_distance, if_neg (by simpa using hij), sq _ (by simp) i j hij]
    replace e1 := (hd 0 1 (by simp) _).symm.trans e1
    simp only [Prog.bind_def, e2] at e1
    have hr := Distance.reads_squares x y x' y' ex.comps ey.comps
    simp only at hr
    rw [hr] at e1
    cases hv : Distance.squares x' y' x'.comps.length 0 0 with
    | ok u =>
      rw [hv] at e1
      have hu : Fl.sqrt u = v := by simpa using congrArg Prod.fst e1
      obtain ⟨g3, e3, w3, k3⟩ := (Distance.between_measures ha.def_ hb.def_ (by simp) (Conv.sameColor_isColor ea ha.col) (Conv.sameColor_isColor eb hb.col) hx' hy'
        (f := fun a b => Distance.squares a b a.comps.length 0 0) hv).1 g i j hw hij hi hj
      refine ⟨g3, ?_, w3, k3⟩
      show Distance.euclidean_distance (some i) (some j) space g = _
      rw [hd i j hij]
      simp only [Prog.bind_def, e3, ← hu]
      rfl
    | throw e => rw [hv] at e1; simp at e1
    | ub => rw [hv] at e1; simp at e1
  · exact Distance.between_same (by simp) Distance.reads_weighted ha hb ea eb h
  · exact luv.mpr (Distance.between_same (by simp) Distance.reads_squares ha hb ea eb (luv.mp h))
  · exact Distance.between_same (by simp) Distance.reads_cie76 ha hb ea eb h
  · exact Distance.between_same (by simp) (Distance.reads_cie94 _ _ _ _ _) ha hb ea eb h
  · exact Distance.between_same (by simp) (Distance.reads_cie00 _ _ _ _ _) ha hb ea eb h
  · exact Distance.between_same (by simp) (Distance.reads_cmc _ _) ha hb ea eb h

/-- A case of C129: two LAB colours at distance 5, one of them half transparent. -/
noncomputable example (w : World) : letI := exactFloat
    Measures Distance.cielab_delta_e_cie76 w ⟨.lab, .lab, [fin 50, fin 10, fin 20], fin 0.5, 128, -128, none⟩ ⟨.lab, .lab, [fin 50, fin 13, fin 24], 1, 128, -128, none⟩ (fin 5) := by
  letI := exactFloat
  letI := exactFloat_exact
  obtain ⟨p, ep, cp, vp, up⟩ := exists_lab w 50 10 20 (by norm_num) (by norm_num) (by norm_num)
  obtain ⟨q, eq, cq, vq, uq⟩ := exists_lab w 50 13 24 (by norm_num) (by norm_num) (by norm_num)
  have := C72_value w p q vp vq _ _ _ _ _ _ up uq
  rw [show (50 - 50 : ℝ) ^ 2 + (10 - 13) ^ 2 + (20 - 24) ^ 2 = 5 ^ 2 by norm_num, Real.sqrt_sq (by norm_num)] at this
  have lim : ∀ x l u : ℝ, l ≤ x → x ≤ u → Color.clamp (fin x) (fin u) (fin l) = fin x := fun x l u h1 h2 => Color.clamp_of_inRange (by simp [h1, h2])
  rw [Color.construct_lab, ok_inj] at ep eq
  subst ep eq
  refine ((C129_distance w (Color.mkLab (fin 50) (fin 10) (fin 20) 1 none) (Color.mkLab (fin 50) (fin 13) (fin 24) 1 none) ⟨.lab, .lab, [fin 50, fin 10, fin 20], fin 0.5, 128, -128, none⟩ ⟨.lab, .lab, [fin 50, fin 13, fin 24], 1, 128, -128, none⟩ ⟨rfl, rfl, ?_, rfl, rfl, rfl⟩ ⟨rfl, rfl, ?_, rfl, rfl, rfl⟩ (fin 5) 0 0 0 0 0).2.2 vp vq).1 this
  all_goals
    simp only [Color.mkLab, lit_def, zero_def, neg_fin]
    rw [lim _ _ _ (by norm_num) (by norm_num), lim _ _ _ (by norm_num) (by norm_num), lim _ _ _ (by norm_num) (by norm_num)]

/-! ## C65 without alpha, for all fifteen types -/

/-- C65 without alpha: for every type and every rounding, swapping two colours of the same colour space together with their weights changes nothing but the opacity of the sum. -/
theorem C65_excluded (t : ColorType) (ht : t ≠ .undefined) (w1 w2 : Fl) (h1 : Weight w1) (h2 : Weight w2) (ia : Bool) (w : World) (a b : Color) (ha : IsColor t a) (hb : IsColor t b)
    (hsp : a.space = b.space) (hw : Cie t → w.Usable a.space) :
    ∃ r r', Yields (addOf t w1 w2 ia) w a b r ∧ Yields (addOf t w2 w1 ia) w b a r' ∧ SameColor r r' := by
  obtain ⟨r, er, hy, -⟩ := addOf_yields ht (pass_of h1) (pass_of h2) ia ha hb (fun hc => ⟨hw hc, hsp ▸ hw hc⟩)
  obtain ⟨r', er', hy', -⟩ := addOf_yields ht (pass_of h2) (pass_of h1) ia hb ha (fun hc => ⟨hsp ▸ hw hc, hw hc⟩)
  refine ⟨r, r', hy, hy', ?_⟩
  obtain ⟨a', b', u, v, ea, eb, eu, cu, ev, -⟩ :=
    through_total (f := fun m => addVal m w1 w2 ia) ht (fun m hm hd a b ha hb => addVal_total hm hd w1 w2 ia ha hb) ha hb (fun hc => ⟨hw hc, hsp ▸ hw hc⟩)
  obtain ⟨b2, a2, u', v', eb2, ea2, eu', cu', ev', -⟩ :=
    through_total (f := fun m => addVal m w2 w1 ia) ht (fun m hm hd a b ha hb => addVal_total hm hd w2 w1 ia ha hb) hb ha (fun hc => ⟨hsp ▸ hw hc, hw hc⟩)
  rw [ea, ok_inj] at ea2
  rw [eb, ok_inj] at eb2
  subst ea2 eb2
  have hm := middle_defined ht
  have hmm : middle (middle t) = middle t := by cases t <;> rfl
  have ca : IsColor (middle t) a' ∧ a'.space = a.space := by
    obtain ⟨x, ex, cx, sx⟩ := val_to_total ht hm (w := w) ha (fun _ hn => hw (by revert hn; cases t <;> simp [middle, Cie] at *))
    rw [ea, ok_inj] at ex
    exact ex ▸ ⟨cx, sx⟩
  have cb : IsColor (middle t) b' ∧ b'.space = b.space := by
    obtain ⟨x, ex, cx, sx⟩ := val_to_total ht hm (w := w) hb (fun _ hn => hsp ▸ hw (by revert hn; cases t <;> simp [middle, Cie] at *))
    rw [eb, ok_inj] at ex
    exact ex ▸ ⟨cx, sx⟩
  obtain ⟨p, ep, fp⟩ := addVal_total hmm hm w1 w2 true ca.1 cb.1
  have ep' := (addVal_swap (w1 := w1) (w2 := w2) (ia := true) ca.1 cb.1 (by rw [ca.2, cb.2, hsp]) (Or.inl rfl)).symm.trans ep
  have comps : u.comps = u'.comps := by rw [addVal_comps ca.1 cb.1 ca.1 cb.1 rfl rfl eu ep, addVal_comps cb.1 ca.1 cb.1 ca.1 rfl rfl eu' ep']
  obtain ⟨u1, eu1, fu1⟩ := addVal_total hmm hm w1 w2 ia ca.1 cb.1
  obtain ⟨u2, eu2, fu2⟩ := addVal_total hmm hm w2 w1 ia cb.1 ca.1
  rw [eu, ok_inj] at eu1
  rw [eu', ok_inj] at eu2
  subst eu1 eu2
  have su : SameColor u u' := ⟨fu1.col.cls.trans fu2.col.cls.symm, fu1.col.ctype.trans fu2.col.ctype.symm, comps, fu1.col.maxv.trans fu2.col.maxv.symm,
    fu1.col.minv.trans fu2.col.minv.symm, by rw [fu1.space, fu2.space, ca.2, cb.2, hsp]⟩
  obtain ⟨v2, ev2, sv⟩ := Conv.to_same su ev
  rw [ev', ok_inj] at ev2
  subst ev2
  simp only [throughVal, ea, eb, eu, ev, ok_bind, ok_inj] at er
  simp only [throughVal, ea, eb, eu', ev', ok_bind, ok_inj] at er'
  rw [← er, ← er']
  exact sv

/-- A case of C65: two HSL colours of different opacity. -/
noncomputable example (w : World) : letI := exactFloat; ∃ r r', Yields (addOf .hsl (fin 0.25) (fin 1) false) w ⟨.hsl, .hsl, [fin 120, fin 1, fin 0.5], 1, 1, 0, none⟩
      ⟨.hsl, .hsl, [fin 60, fin 1, fin 0.5], fin 0.5, 1, 0, none⟩ r ∧
    Yields (addOf .hsl (fin 1) (fin 0.25) false) w ⟨.hsl, .hsl, [fin 60, fin 1, fin 0.5], fin 0.5, 1, 0, none⟩ ⟨.hsl, .hsl, [fin 120, fin 1, fin 0.5], 1, 1, 0, none⟩ r' ∧ SameColor r r' := by
  letI := exactFloat
  exact C65_excluded .hsl (by simp) _ _ ⟨_, rfl, by norm_num, by norm_num⟩ ⟨_, rfl, by norm_num, by norm_num⟩ false w _ _ ⟨rfl, rfl, rfl, rfl, rfl⟩ ⟨rfl, rfl, rfl, rfl, rfl⟩ rfl
    (fun h => by simp [Cie] at h)

end
