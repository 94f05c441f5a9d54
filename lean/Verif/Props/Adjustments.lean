import Verif.Props.Combinations2

/-!
# Properties C82–C84, C94 and C95: saturating and luminating

Pointers, ranges and side effects hold in every arithmetic and for every percentage, NaN and infinities included.
-/

open Outcome Fl Prog ObjectSpec ConvSpec BlendSpec CombineSpec

namespace AdjustSpec
variable [FloatModel]

/-- Called with a pointer to `c`, wherever it is stored, `f` returns a pointer to the new object `r` and changes nothing else. -/
def Makes (f : Ptr → Prog Ptr) (w : World) (c r : Color) : Prop :=
  ∀ (h : Heap) (i : Nat), h.world = w → h.colors[i]? = some c → ∃ k h', f (some i) h = (ok k, h') ∧ IsNew h h' k r ∧ Frame h h'

/-- Called with a pointer to `c`, wherever it is stored, `f` returns the same pointer and replaces the object by `r`. -/
def Replaces (f : Ptr → Prog Ptr) (w : World) (c r : Color) : Prop :=
  ∀ (h : Heap) (i : Nat), h.world = w → h.colors[i]? = some c → f (some i) h = (ok (some i), ⟨h.world, h.colors.set i r⟩)

/-- The four adjustments. -/
def Adjustment (f : Ptr → Fl → Prog Ptr) : Prop :=
  f = Adjust.saturate_in_rgb_space ∨ f = Adjust.luminate_in_rgb_space ∨ f = Adjust.saturate_in_hsl_space ∨ f = Adjust.luminate_in_hsl_space

/-- The two in RGB. -/
def InRgb (f : Ptr → Fl → Prog Ptr) : Prop := f = Adjust.saturate_in_rgb_space ∨ f = Adjust.luminate_in_rgb_space

/-- The two in HSL. -/
def InHsl (f : Ptr → Fl → Prog Ptr) : Prop := f = Adjust.saturate_in_hsl_space ∨ f = Adjust.luminate_in_hsl_space

/-- The object at `i` becomes `r`, all others and the colour spaces stay. -/
def Overwrites (h h' : Heap) (i : Nat) (r : Color) : Prop :=
  h'.world = h.world ∧ h'.colors[i]? = some r ∧ ∀ j c, j ≠ i → h.colors[j]? = some c → h'.colors[j]? = some c

theorem Makes.unique {f : Ptr → Prog Ptr} {w : World} {c a b : Color} (h1 : Makes f w c a) (h2 : Makes f w c b) : a = b := by
  obtain ⟨k, h', e, ⟨q, rfl, -, hq⟩, -⟩ := h1 ⟨w, [c]⟩ 0 rfl rfl
  obtain ⟨k', h'', e', ⟨q', rfl, -, hq'⟩, -⟩ := h2 ⟨w, [c]⟩ 0 rfl rfl
  rw [e, Prod.mk.injEq, ok_inj, Option.some.injEq] at e'
  obtain ⟨rfl, rfl⟩ := e'
  rw [hq] at hq'
  exact Option.some.inj hq'

/-- What the RGB adjustments do. -/
theorem rgb_makes {s : ColorType} {w : World} {c : Color} (hb : Base w s c) (f : Fl → Fl → Fl → Fl × Fl × Fl) :
    ∃ d x y z r, Val.to s .rgbDeep w c = ok d ∧ IsColor .rgbDeep d ∧ (s ≠ .rgbDeep → ComponentsInRange d) ∧ d.space = c.space ∧ d.comps = [x, y, z] ∧
      Val.to .rgbDeep s w (Color.mkRgbDeep (f x y z).1 (f x y z).2.1 (f x y z).2.2 d.alpha c.space) = ok r ∧ Makes (Adjust.inRgb f) w c r ∧ Base w s r ∧ ComponentsInRange r := by
  obtain ⟨d, e, hd, hds⟩ := val_to_total (s := s) (t := .rgbDeep) (w := w) hb.defined (by simp) hb.col (fun hh _ => hb.space (hh.resolve_right (by simp [Cie])))
  obtain ⟨x, y, z, hx⟩ := Adjust.rgbColor hd
  obtain ⟨r, er, hr, hsp⟩ := val_to_total (s := .rgbDeep) (t := s) (w := w) (by simp) hb.defined (Adjust.mkRgb_color (f x y z).1 (f x y z).2.1 (f x y z).2.2 d.alpha c.space)
    (fun hh _ => hb.space (hh.resolve_left (by simp [Cie])))
  have hsp : r.space = c.space := hsp
  refine ⟨d, x, y, z, r, e, hd, fun hne => ?_, hds, by rw [hx], er, ?_, ⟨hb.defined, hb.notLch, hr, by rw [hsp]; exact hb.space⟩, ?_⟩
  · rw [Val.to, if_neg hne] at e
    exact ((Conv.good_direct s .rgbDeep hb.defined (by simp) hne).result _ _ _ e).rng
  · intro h i hw hi
    subst hw
    obtain ⟨k, h', e1, f1, l1, here1, -⟩ := Adjust.inRgb_run hb.target (f := f) hb.col (by rw [hx]) hi e er
    exact ⟨some k, h', e1, ⟨k, rfl, l1, here1⟩, f1⟩
  · by_cases hs : s = .rgbDeep
    · subst hs
      rw [Val.to, if_pos rfl, ok_inj] at er
      rw [← er]
      exact (Conv.construct_result (t := .rgbDeep) (by simp) rfl (Color.construct_rgbDeep (f x y z).1 (f x y z).2.1 (f x y z).2.2 (a := d.alpha) (sp := c.space))).rng
    · rw [Val.to, if_neg (Ne.symm hs)] at er
      exact ((Conv.good_direct .rgbDeep s (by simp) hb.defined (Ne.symm hs)).result _ _ _ er).rng

theorem inRgb_cases {f : Ptr → Fl → Prog Ptr} (hf : InRgb f) (p : Fl) : ∃ g, (fun q => f q p) = Adjust.inRgb g := by
  rcases hf with rfl | rfl
  · exact ⟨_, funext fun q => Adjust.saturate_rgb_eq q p⟩
  · exact ⟨_, funext fun q => Adjust.luminate_rgb_eq q p⟩

/-- The lightness or saturation changed. -/
def Scaled (f : Ptr → Fl → Prog Ptr) (p x y z : Fl) (l : List Fl) : Prop :=
  f = Adjust.saturate_in_hsl_space ∧ l = [x, fmax (fmin (y * (1 + p)) 1) 0, z] ∨ f = Adjust.luminate_in_hsl_space ∧ l = [x, y, fmax (fmin (z * (1 + p)) 1) 0]

theorem scaled_exists {f : Ptr → Fl → Prog Ptr} (hf : InHsl f) (p x y z : Fl) : ∃ l, Scaled f p x y z l := by
  rcases hf with rfl | rfl
  · exact ⟨_, Or.inl ⟨rfl, rfl⟩⟩
  · exact ⟨_, Or.inr ⟨rfl, rfl⟩⟩

/-- The model of an HSL adjustment in terms of values. -/
theorem hsl_value {f : Ptr → Fl → Prog Ptr} {p x y z : Fl} (hp : ¬ feq p 0) {l : List Fl} (hl : Scaled f p x y z l) {d : Color} (hd : IsColor .hsl d) (hx : d.comps = [x, y, z]) :
    ∃ v, (∀ q h, f q p h = Adjust.inHsl v q h) ∧ v d = ok { d with comps := l } ∧ IsColor .hsl { d with comps := l } := by
  have hde : d = ⟨.hsl, .hsl, [x, y, z], d.malpha, 1, 0, d.space⟩ := by
    obtain ⟨x', y', z', h'⟩ := Combine.hslColor hd
    have hc := congrArg Color.comps h'
    rw [hx] at hc
    simp only [List.cons.injEq, and_true] at hc
    obtain ⟨rfl, rfl, rfl⟩ := hc
    exact h'
  rcases hl with ⟨rfl, rfl⟩ | ⟨rfl, rfl⟩
  · refine ⟨Adjust.satVal p, fun q h => Adjust.saturate_eq hp q h, ?_, ⟨hd.cls, hd.ctype, rfl, hd.maxv, hd.minv⟩⟩
    rw [Adjust.satVal_eq p hde, if_neg hp]
    conv_rhs => rw [hde]
    rfl
  · refine ⟨Adjust.lumVal p, fun q h => Adjust.luminate_eq hp q h, ?_, ⟨hd.cls, hd.ctype, rfl, hd.maxv, hd.minv⟩⟩
    rw [Adjust.lumVal_eq p hde, if_neg hp]
    conv_rhs => rw [hde]
    rfl

/-- What the HSL adjustments do to a colour of another class. -/
theorem hsl_makes {s : ColorType} {w : World} {c : Color} (hb : Base w s c) (hs : s ≠ .hsl) {f : Ptr → Fl → Prog Ptr} (hf : InHsl f) {p : Fl} (hp : ¬ feq p 0) :
    ∃ d x y z l r, Converts w c .hsl d ∧ d.comps = [x, y, z] ∧ Scaled f p x y z l ∧ Converts w { d with comps := l } s r ∧
      Makes (fun q => f q p) w c r ∧ Base w s r ∧ ComponentsInRange r := by
  obtain ⟨d, x, y, z, e, hd, hcv⟩ := hb.hsl
  have hdv := e
  rw [Val.to, if_neg hs] at hdv
  have hfr := (Conv.good_direct s .hsl hb.defined (by simp) hs).result _ _ _ hdv
  obtain ⟨l, hl⟩ := scaled_exists hf p x y z
  obtain ⟨v, hv1, hv2, hcol'⟩ := hsl_value hp hl hfr.col hd
  have hsp' : ({ d with comps := l } : Color).space = c.space := hfr.space
  obtain ⟨r, er, hr, hsp⟩ := val_to_total (s := .hsl) (t := s) (w := w) (by simp) hb.defined hcol' (fun hh _ => by rw [hsp']; exact hb.space (hh.resolve_left (by simp [Cie])))
  rw [hsp'] at hsp
  refine ⟨d, x, y, z, l, r, hcv, hd, hl, (converts_iff (by simp) hb.defined hcol').mpr er, ?_, ⟨hb.defined, hb.notLch, hr, by rw [hsp]; exact hb.space⟩, ?_⟩
  · intro h i hw hi
    subst hw
    obtain ⟨k, h', e1, f1, l1, here1, -⟩ := Adjust.inHsl_other hb.target hs hb.col hcol' hv2 hi e er
    exact ⟨some k, h', by simp only [hv1]; exact e1, ⟨k, rfl, l1, here1⟩, f1⟩
  · rw [Val.to, if_neg (Ne.symm hs)] at er
    exact ((Conv.good_direct .hsl s (by simp) hb.defined (Ne.symm hs)).result _ _ _ er).rng

/-- What they do to an HSL colour. -/
theorem hsl_replaces {w : World} {c : Color} (hc : IsColor .hsl c) {f : Ptr → Fl → Prog Ptr} {p x y z : Fl} (hp : ¬ feq p 0) (hx : c.comps = [x, y, z]) {l : List Fl}
    (hl : Scaled f p x y z l) : Replaces (fun q => f q p) w c { c with comps := l } := by
  intro h i _ hi
  obtain ⟨v, hv1, hv2, hcol'⟩ := hsl_value hp hl hc hx
  simp only [hv1]
  exact Adjust.inHsl_own hc hcol' hv2 hi

theorem hsl_zero {f : Ptr → Fl → Prog Ptr} (hf : InHsl f) {p : Fl} (hp : feq p 0) (q : Ptr) (h : Heap) : f q p h = (ok q, h) := by
  rcases hf with rfl | rfl
  · rw [Adjust.saturate_in_hsl_space, if_pos hp, Prog.pure_run]
  · rw [Adjust.luminate_in_hsl_space, if_pos hp, Prog.pure_run]

theorem limit_fin (a : ℝ) : fmax (fmin (fin a) 1) 0 = fin (max (min a 1) 0) := by
  simp only [one_def, zero_def, fmin_fin, fmax_fin]

theorem limit_pinf : fmax (fmin pinf 1) 0 = fin 1 := by simp [fmin, fmax]
theorem limit_ninf : fmax (fmin ninf 1) 0 = fin 0 := by simp [fmin, fmax]
theorem limit_nan : fmax (fmin nan 1) 0 = fin 1 := by simp [fmin, fmax]

/-- Limiting keeps the order. -/
theorem limit_mono {a b : Fl} (h : a ≤ b) : fmax (fmin a 1) 0 ≤ fmax (fmin b 1) 0 := by
  cases a <;> cases b <;> simp only [limit_fin, limit_pinf, limit_ninf, fin_le, nan_le, le_nan, not_pinf_le_fin, not_fin_le_ninf, not_pinf_le_ninf] at h ⊢
  · exact le_rfl
  · norm_num
  · exact le_rfl
  · exact le_max_right _ _
  · exact max_le (min_le_right _ _) (by norm_num)
  · exact max_le_max (min_le_min h le_rfl) le_rfl

/-- The two HSL adjustments differ. -/
theorem sat_ne_lum (w : World) : Adjust.saturate_in_hsl_space ≠ Adjust.luminate_in_hsl_space := by
  intro hne
  let c : Color := ⟨.hsl, .hsl, [fin 0, fin 0, fin 1], 1, 1, 0, none⟩
  have hc : IsColor .hsl c := ⟨rfl, rfl, rfl, rfl, rfl⟩
  have e1 := hsl_replaces (w := w) (c := c) (f := Adjust.saturate_in_hsl_space) (p := ninf) hc (by simp [feq]) rfl (Or.inl ⟨rfl, rfl⟩) ⟨w, [c]⟩ 0 rfl rfl
  have e2 := hsl_replaces (w := w) (c := c) (f := Adjust.luminate_in_hsl_space) (p := ninf) hc (by simp [feq]) rfl (Or.inr ⟨rfl, rfl⟩) ⟨w, [c]⟩ 0 rfl rfl
  simp only at e1 e2
  rw [← hne, e1] at e2
  have h1 : (1 : Fl) + ninf = ninf := by rw [one_def]; rfl
  have h3 : fin 1 * ninf = ninf := by
    show infOf (-1) = ninf
    norm_num [infOf]
  simp only [h1, h3, limit_ninf, List.set_cons_zero, Prod.mk.injEq, Heap.mk.injEq, List.cons.injEq, Color.mk.injEq, fin_inj] at e2
  norm_num at e2

theorem limit_range (a : Fl) : InRange 0 1 (fmax (fmin a 1) 0) := by
  simpa [Color.clamp] using Color.clamp_inRange a (mn := 0) (mx := 1) (by norm_num)

/-- Adjusting an HSL colour keeps its channels legal. -/
theorem scaled_range {f : Ptr → Fl → Prog Ptr} {p x y z : Fl} {l : List Fl} (hl : Scaled f p x y z l) {c : Color} (hc : IsColor .hsl c) (hx : c.comps = [x, y, z])
    (hr : ComponentsInRange c) : ComponentsInRange { c with comps := l } := by
  have r0 := hr 0 (by rw [hx]; simp)
  have r1 := hr 1 (by rw [hx]; simp)
  have r2 := hr 2 (by rw [hx]; simp)
  simp only [hc.ctype, hx, List.getElem_cons_zero, List.getElem_cons_succ] at r0 r1 r2
  rcases hl with ⟨-, rfl⟩ | ⟨-, rfl⟩
  · intro i hi
    match i, hi with
    | 0, _ => simpa [hc.ctype] using r0
    | 1, _ => simpa [hc.ctype, channelRange] using limit_range (y * (1 + p))
    | 2, _ => simpa [hc.ctype] using r2
  · intro i hi
    match i, hi with
    | 0, _ => simpa [hc.ctype] using r0
    | 1, _ => simpa [hc.ctype] using r1
    | 2, _ => simpa [hc.ctype, channelRange] using limit_range (z * (1 + p))

/-- The by-reference variant from the one that makes a new colour. -/
theorem Makes.overwrites {f : Ptr → Fl → Prog Ptr} {p : Fl} {w : World} {c r : Color} (hm : Makes (fun q => f q p) w c r) (hcls : r.cls = c.cls) {h : Heap} {i : Nat} (hw : h.world = w)
    (hi : h.colors[i]? = some c) : ∃ h', Adjust.byReference f i p h = (ok (), h') ∧ Overwrites h h' i r := by
  obtain ⟨k, h', e, ⟨q, rfl, hq, hr⟩, fr⟩ := hm h i hw hi
  have e : f (some i) p h = (ok (some q), h') := e
  have hil := (List.getElem?_eq_some_iff.mp (fr.2 _ _ hi)).1
  have hrr : { r with cls := c.cls } = r := by rw [← hcls]
  refine ⟨⟨h'.world, h'.colors.set i r⟩, ?_, fr.1, by simp [hil], fun j c' hj hc' => ?_⟩
  · simp only [Adjust.byReference, Prog.bind_def, e, Combine.load_some hr, Combine.load_some (fr.2 _ _ hi), store, hil, if_true, hrr]
  · simp only
    rw [List.getElem?_set_ne (Ne.symm hj)]
    exact fr.2 j c' hc'

theorem Replaces.overwrites {f : Ptr → Fl → Prog Ptr} {p : Fl} {w : World} {c r : Color} (hm : Replaces (fun q => f q p) w c r) {h : Heap} {i : Nat} (hw : h.world = w)
    (hi : h.colors[i]? = some c) : ∃ h', Adjust.byReference f i p h = (ok (), h') ∧ Overwrites h h' i r := by
  have e : f (some i) p h = _ := hm h i hw hi
  have hil := (List.getElem?_eq_some_iff.mp hi).1
  refine ⟨⟨h.world, h.colors.set i r⟩, ?_, rfl, by simp [hil], fun j c' hj hc' => ?_⟩
  · have hl : load (some i) ⟨h.world, h.colors.set i r⟩ = (ok r, ⟨h.world, h.colors.set i r⟩) := Combine.load_some (by simp [hil])
    simp only [Adjust.byReference, Prog.bind_def, e, hl, store, List.length_set, hil, if_true, List.set_set]
  · simp only
    rw [List.getElem?_set_ne (Ne.symm hj)]
    exact hc'

theorem replaces_self {f : Ptr → Prog Ptr} {w : World} {c : Color} (hf : ∀ q h, f q h = (ok q, h)) : Replaces f w c c := by
  intro h i _ hi
  obtain ⟨hl, he⟩ := List.getElem?_eq_some_iff.mp hi
  rw [hf, ← he, List.set_getElem_self]

end AdjustSpec

open AdjustSpec

section
variable [FloatModel]

/-! ## C82 -/

/-- **C82 (partial)** The HSL variants with 0 (or -0) return the given pointer and touch nothing, whatever the colour; their by-reference variants leave the colour as it is.
Missing: the RGB variants, see below. -/
theorem C82_hsl_partial (f : Ptr → Fl → Prog Ptr) (hf : InHsl f) (p : Fl) (hp : feq p 0) :
    (∀ q h, f q p h = (ok q, h)) ∧ ∀ (h : Heap) (i : Nat) (c : Color), h.colors[i]? = some c → Adjust.byReference f i p h = (ok (), h) := by
  refine ⟨hsl_zero hf hp, fun h i c hi => ?_⟩
  obtain ⟨hl, he⟩ := List.getElem?_eq_some_iff.mp hi
  have hset : h.colors.set i { c with cls := c.cls } = h.colors := by
    show h.colors.set i c = h.colors
    rw [← he, List.set_getElem_self]
  simp only [Adjust.byReference, Prog.bind_def, hsl_zero hf hp, Combine.load_some hi, store, hl, if_true]
  rw [hset]

end

section
variable [FloatModel] [ExactModel]

theorem rgb_zero {f : Ptr → Fl → Prog Ptr} (hf : InRgb f) : ∃ g, (fun q => f q (fin 0)) = Adjust.inRgb g ∧ ∀ x y z : ℝ, g (fin x) (fin y) (fin z) = (fin x, fin y, fin z) := by
  rcases hf with rfl | rfl
  · refine ⟨_, funext fun q => Adjust.saturate_rgb_eq q _, fun x y z => ?_⟩
    simp only [Adjust.satRgb, lit_exact, mul_exact, add_exact, sub_exact, zero_mul, sub_zero]
  · refine ⟨_, funext fun q => Adjust.luminate_rgb_eq q _, fun x y z => ?_⟩
    simp only [Adjust.lumRgb, one_def, add_exact, mul_exact, add_zero, mul_one]

/-- A legal RGB_DEEP colour made anew. -/
theorem rgb_again {d : Color} (hd : IsColor .rgbDeep d) (hr : ComponentsInRange d) {x y z : Fl} (hx : d.comps = [x, y, z]) :
    ∃ u v t : ℝ, x = fin u ∧ y = fin v ∧ z = fin t ∧ Color.mkRgbDeep x y z d.alpha d.space = d := by
  have r0 := hr 0 (by rw [hx]; simp)
  have r1 := hr 1 (by rw [hx]; simp)
  have r2 := hr 2 (by rw [hx]; simp)
  simp only [hd.ctype, hx, List.getElem_cons_zero, List.getElem_cons_succ] at r0 r1 r2
  obtain ⟨u, rfl, u0, u1⟩ : InRange 0 1 x := r0
  obtain ⟨v, rfl, v0, v1⟩ : InRange 0 1 y := r1
  obtain ⟨t, rfl, t0, t1⟩ : InRange 0 1 z := r2
  refine ⟨u, v, t, rfl, rfl, rfl, ?_⟩
  have h : IsRgb d u v t := ⟨hd, hx, u0, u1, v0, v1, t0, t1⟩
  rw [Hue.rgb_eq h]
  rw [Color.mkRgbDeep, Hue.clamp01 u0 u1, Hue.clamp01 v0 v1, Hue.clamp01 t0 t1]
  rfl

/-- **C82 (partial)** The RGB variants with 0 on an RGB_DEEP colour make a new, equal colour.  Missing: other classes, see `C82_rgb_converted`. -/
theorem C82_rgb_deep_partial (f : Ptr → Fl → Prog Ptr) (hf : InRgb f) (w : World) (c : Color) (r g b : ℝ) (h : IsRgb c r g b) : Makes (fun q => f q (fin 0)) w c c := by
  obtain ⟨k, hk, hz⟩ := rgb_zero hf
  obtain ⟨d, x, y, z, r', e1, hd, -, hds, hx, e2, hm, -⟩ := rgb_makes (w := w) (s := .rgbDeep) ⟨by simp, by simp, h.col, by simp [Cie]⟩ k
  rw [Val.to, if_pos rfl, ok_inj] at e1
  subst e1
  rw [h.comps] at hx
  simp only [List.cons.injEq, and_true] at hx
  obtain ⟨rfl, rfl, rfl⟩ := hx
  rw [Val.to, if_pos rfl, ok_inj, hz] at e2
  rw [hk]
  have : r' = c := by
    rw [← e2]
    conv_rhs => rw [Hue.rgb_eq h]
    have hal : c.alpha = c.malpha := by rw [Hue.rgb_eq h]; rfl
    rw [Color.mkRgbDeep, Hue.clamp01 h.r0 h.r1, Hue.clamp01 h.g0 h.g1, Hue.clamp01 h.b0 h.b1, hal]
    rfl
  rw [← this]
  rwa [this] at hm ⊢

/-- **C82** The RGB variants with 0 on a colour of another class give exactly what the round trip through RGB_DEEP gives; so they return the same colour exactly when that
round trip does. -/
theorem C82_rgb_converted (f : Ptr → Fl → Prog Ptr) (hf : InRgb f) (s : ColorType) (w : World) (c : Color) (hb : Base w s c) (hs : s ≠ .rgbDeep) :
    ∃ r, Makes (fun q => f q (fin 0)) w c r ∧ Trip w c .rgbDeep s r := by
  obtain ⟨k, hk, hz⟩ := rgb_zero hf
  obtain ⟨d, x, y, z, r, e1, hd, hrg, hds, hx, e2, hm, -⟩ := rgb_makes hb k
  obtain ⟨u, v, t, rfl, rfl, rfl, hmk⟩ := rgb_again hd (hrg hs) hx
  rw [hz, ← hds] at e2
  simp only [hmk] at e2
  rw [Val.to, if_neg hs] at e1
  rw [Val.to, if_neg (Ne.symm hs)] at e2
  exact ⟨r, hk ▸ hm, trip_of hb.defined (by simp) hs hb.col e1 e2⟩

/-- **C82 is violated** by an HSI colour: its intensity changes from 1/2 to 1/4 when it is saturated or luminated by 0. -/
theorem C82_hsi_violated (f : Ptr → Fl → Prog Ptr) (hf : InRgb f) (w : World) (al : Fl) (sp : Option Nat) :
    ∃ c r, Color.construct .hsi [0, fin (1 / 2), fin (1 / 2)] al sp = ok c ∧ Makes (fun q => f q (fin 0)) w c r ∧ c.comps[2]? = some (fin (1 / 2)) ∧ r.comps[2]? = some (fin (1 / 4)) := by
  have hc : Color.mkHue .hsi 0 (fin (1 / 2)) (fin (1 / 2)) al sp = Hue.obj .hsi (Hue.Sector.hue .A 0) (1 / 2) (1 / 2) al sp := by
    have hz : Color.clamp (fin 0) 359 0 = fin 0 := by simp [Color.clamp_fin]
    simp only [Color.mkHue, zero_def, Color.hueReduce_id (h := 0) (by norm_num) (by norm_num), Hue.Sector.hue, mul_zero]
    have h0 := Hue.clamp01 (x := 1 / 2) (by norm_num) (by norm_num)
    simp only [zero_def] at h0 hz
    rw [h0, hz]
    simp [Hue.obj, Color.maxOf, Color.minOf]
  have hcol : IsColor .hsi (Hue.obj .hsi (Hue.Sector.hue .A 0) (1 / 2) (1 / 2) al sp) := ⟨rfl, rfl, rfl, rfl, rfl⟩
  obtain ⟨r, hm, ht⟩ := C82_rgb_converted f hf .hsi w _ ⟨by simp, by simp, hcol, by simp [Cie]⟩ (by simp)
  refine ⟨_, r, by rw [Color.construct_hsi, hc], hm, rfl, ?_⟩
  have e1 := Hue.from_hsi .A (u := 0) le_rfl (by norm_num) (1 / 2) (1 / 2) (by norm_num) al sp
  have e2 : Color.mkRgbDeep (fin (3 * (1 / 2) * (1 / 2) / (1 + 0) * Hue.Sector.red .A 0)) (fin (3 * (1 / 2) * (1 / 2) / (1 + 0) * Hue.Sector.green .A 0))
      (fin (3 * (1 / 2) * (1 / 2) / (1 + 0) * Hue.Sector.blue .A 0)) al sp = Hue.obj .rgbDeep (3 / 4) 0 0 al sp := by
    have a1 : (3 * (1 / 2) * (1 / 2) / (1 + 0) * Hue.Sector.red .A 0 : ℝ) = 3 / 4 := by norm_num [Hue.Sector.red]
    have a2 : (3 * (1 / 2) * (1 / 2) / (1 + 0) * Hue.Sector.green .A 0 : ℝ) = 0 := by norm_num [Hue.Sector.green]
    have a3 : (3 * (1 / 2) * (1 / 2) / (1 + 0) * Hue.Sector.blue .A 0 : ℝ) = 0 := by norm_num [Hue.Sector.blue]
    rw [a1, a2, a3, Color.mkRgbDeep, Hue.clamp01 (by norm_num) (by norm_num), Hue.clamp01 (by norm_num) (by norm_num)]
    rfl
  rw [e2] at e1
  obtain ⟨d, e3, hd⟩ : ∃ d, Leaf.rgb_deep_to_hsi (Hue.obj .rgbDeep (3 / 4) 0 0 al sp) = ok d ∧ d.comps[2]? = some (fin (1 / 4)) := by
    simp only [Leaf.rgb_deep_to_hsi, Hue.obj_0, Hue.obj_1, Hue.obj_2, Hue.obj_space, ok_bind, fmin_fin, fmax_fin, feq_fin, Color.construct_hsi]
    rw [if_neg (by norm_num)]
    refine ⟨_, rfl, ?_⟩
    simp only [Color.mkHue, lit_def, add_exact]
    rw [div_exact _ _ (by norm_num)]
    simp only [List.getElem?_cons_succ, List.getElem?_cons_zero, Option.some.injEq]
    rw [Hue.clamp01 (by norm_num) (by norm_num)]
    norm_num
  rw [ht.unique (trip_of (s := .hsi) (t := .rgbDeep) (by simp) (by simp) (by simp) hcol e1 e3), hd]

/-- The hypotheses can be met: an RGB_TRUE colour. -/
example (w : World) : ∃ c r, Color.construct .rgbTrue [255, 128, 0] 255 none = ok c ∧ Makes (fun q => Adjust.saturate_in_rgb_space q (fin 0)) w c r ∧ Trip w c .rgbDeep .rgbTrue r := by
  obtain ⟨c, ec⟩ := Conv.construct_total .rgbTrue (vs := [255, 128, 0]) 255 none rfl
  have hf := Conv.construct_result (t := .rgbTrue) (by simp) rfl ec
  obtain ⟨r, h1, h2⟩ := C82_rgb_converted _ (Or.inl rfl) .rgbTrue w c ⟨by simp, by simp, hf.col, by simp [Cie]⟩ (by simp)
  exact ⟨c, r, ec, h1, h2⟩

end

section
variable [FloatModel]

/-! ## C83 -/

/-- **C83** Every adjustment of a legal colour by any amount, NaN and the infinities included, gives a legal colour of the same class. -/
theorem C83_range (f : Ptr → Fl → Prog Ptr) (hf : Adjustment f) (p : Fl) (s : ColorType) (w : World) (c : Color) (hb : Base w s c) (hr : ComponentsInRange c) :
    ∃ r, (Makes (fun q => f q p) w c r ∨ Replaces (fun q => f q p) w c r) ∧ IsColor s r ∧ ComponentsInRange r := by
  have hf : InRgb f ∨ InHsl f := by rcases hf with h | h | h | h <;> simp [InRgb, InHsl, h]
  rcases hf with hf | hf
  · obtain ⟨g, hg⟩ := inRgb_cases hf p
    obtain ⟨-, -, -, -, r, -, -, -, -, -, -, hm, hbr, hrr⟩ := rgb_makes hb g
    exact ⟨r, Or.inl (hg ▸ hm), hbr.col, hrr⟩
  · by_cases hp : feq p 0
    · exact ⟨c, Or.inr (replaces_self (hsl_zero hf hp)), hb.col, hr⟩
    · by_cases hs : s = .hsl
      · subst hs
        obtain ⟨x, y, z, hx⟩ := Combine.hslColor hb.col
        have hx : c.comps = [x, y, z] := by rw [hx]
        obtain ⟨l, hl⟩ := scaled_exists hf p x y z
        have hlen : l.length = 3 := by rcases hl with ⟨-, rfl⟩ | ⟨-, rfl⟩ <;> rfl
        exact ⟨_, Or.inr (hsl_replaces hb.col hp hx hl), ⟨hb.col.cls, hb.col.ctype, hlen, hb.col.maxv, hb.col.minv⟩, scaled_range hl hb.col hx hr⟩
      · obtain ⟨-, -, -, -, -, r, -, -, -, -, hm, hbr, hrr⟩ := hsl_makes hb hs hf hp
        exact ⟨r, Or.inl hm, hbr.col, hrr⟩

/-- **C83 (partial)** On an HSL colour a larger amount never gives a smaller saturation or lightness, and the other channels stay as they are; in every arithmetic that
represents small integers and the two channels exactly.  Missing: amounts for which 1 + amount overflows (`C83_infinite_violated`). -/
theorem C83_monotone_partial [IntExact] (f : Ptr → Fl → Prog Ptr) (hf : InHsl f) (w : World) (c : Color) (x y z : ℝ) (h : IsHsl c x y z) (hy : rnd y = fin y) (hz : rnd z = fin z)
    (p q : ℝ) (hpq : p ≤ q) (hp : IsFin (1 + fin p)) (hq : IsFin (1 + fin q)) :
    ∃ y1 z1 y2 z2 : ℝ, Replaces (fun k => f k (fin p)) w c { c with comps := [fin x, fin y1, fin z1] } ∧ Replaces (fun k => f k (fin q)) w c { c with comps := [fin x, fin y2, fin z2] } ∧
      (f = Adjust.saturate_in_hsl_space → y1 ≤ y2 ∧ z1 = z ∧ z2 = z) ∧ (f = Adjust.luminate_in_hsl_space → z1 ≤ z2 ∧ y1 = y ∧ y2 = y) := by
  have h1 : rnd (1 : ℝ) = fin 1 := by simpa using IntExact.rnd_int 1 (by norm_num)
  -- the amount 0 fits the formula
  have key : ∀ a : ℝ, ∃ l, Scaled f (fin a) (fin x) (fin y) (fin z) l ∧ Replaces (fun k => f k (fin a)) w c { c with comps := l } := by
    intro a
    obtain ⟨l, hl⟩ := scaled_exists hf (fin a) (fin x) (fin y) (fin z)
    refine ⟨l, hl, ?_⟩
    by_cases ha : feq (fin a) 0
    · have hcl : { c with comps := l } = c := by
        obtain rfl : a = 0 := by simpa using ha
        have hone : (1 : Fl) + fin 0 = fin 1 := by rw [one_def, fin_add, add_zero, h1]
        have e : l = [fin x, fin y, fin z] := by
          rcases hl with ⟨-, rfl⟩ | ⟨-, rfl⟩
          · rw [hone, fin_mul, mul_one, hy, limit_fin, min_eq_left h.y1, max_eq_left h.y0]
          · rw [hone, fin_mul, mul_one, hz, limit_fin, min_eq_left h.z1, max_eq_left h.z0]
        rw [e, ← h.comps]
      rw [hcl]
      exact replaces_self (hsl_zero hf ha)
    · exact hsl_replaces h.col ha h.comps hl
  have mono : ∀ v : ℝ, 0 ≤ v → fmax (fmin (fin v * (1 + fin p)) 1) 0 ≤ fmax (fmin (fin v * (1 + fin q)) 1) 0 := by
    intro v v0
    obtain ⟨a, ha⟩ := hp
    obtain ⟨b, hb⟩ := hq
    have hab : fin a ≤ fin b := by
      rw [← ha, ← hb, one_def, fin_add, fin_add]
      exact FloatModel.rnd_mono _ _ (by linarith)
    rw [ha, hb, fin_mul, fin_mul]
    exact limit_mono (FloatModel.rnd_mono _ _ (mul_le_mul_of_nonneg_left hab v0))
  obtain ⟨l1, hl1, e1⟩ := key p
  obtain ⟨l2, hl2, e2⟩ := key q
  have hne : Adjust.saturate_in_hsl_space ≠ Adjust.luminate_in_hsl_space := sat_ne_lum w
  rcases hf with rfl | rfl
  · obtain ⟨u1, a1, -⟩ := limit_range (fin y * (1 + fin p))
    obtain ⟨u2, a2, -⟩ := limit_range (fin y * (1 + fin q))
    have hm := mono y h.y0
    rw [a1, a2] at hm
    rcases hl1 with ⟨-, rfl⟩ | ⟨hh, -⟩
    · rcases hl2 with ⟨-, rfl⟩ | ⟨hh, -⟩
      · rw [a1] at e1
        rw [a2] at e2
        exact ⟨u1, z, u2, z, e1, e2, fun _ => ⟨hm, rfl, rfl⟩, fun hh => absurd hh hne⟩
      · exact absurd hh hne
    · exact absurd hh hne
  · obtain ⟨u1, a1, -⟩ := limit_range (fin z * (1 + fin p))
    obtain ⟨u2, a2, -⟩ := limit_range (fin z * (1 + fin q))
    have hm := mono z h.z0
    rw [a1, a2] at hm
    rcases hl1 with ⟨hh, -⟩ | ⟨-, rfl⟩
    · exact absurd hh.symm hne
    · rcases hl2 with ⟨hh, -⟩ | ⟨-, rfl⟩
      · exact absurd hh.symm hne
      · rw [a1] at e1
        rw [a2] at e2
        exact ⟨y, u1, y, u2, e1, e2, fun hh => absurd hh.symm hne, fun _ => ⟨hm, rfl, rfl⟩⟩

/-- **C83 is violated** for an infinite amount: removing all saturation from a grey by minus infinity percent gives full saturation, more than any finite amount gives. -/
theorem C83_infinite_violated (w : World) (c : Color) (x z : ℝ) (h : IsHsl c x 0 z) : Replaces (fun k => Adjust.saturate_in_hsl_space k ninf) w c { c with comps := [fin x, fin 1, fin z] } := by
  have := hsl_replaces (w := w) (f := Adjust.saturate_in_hsl_space) (p := ninf) h.col (by simp [feq]) h.comps (Or.inl ⟨rfl, rfl⟩)
  have e : fmax (fmin (fin 0 * (1 + ninf)) 1) 0 = fin 1 := by
    have h1 : (1 : Fl) + ninf = ninf := by rw [one_def]; rfl
    have h2 : fin 0 * ninf = nan := by
      show infOf (-0) = nan
      simp [infOf]
    rw [h1, h2]
    exact limit_nan
  rwa [e] at this

/-- The hypotheses can be met: a colour made more and less saturated. -/
example [ExactModel] (w : World) : ∃ c y1 z1 y2 z2, Color.construct .hsl [fin 200, fin 0.5, fin 0.25] 1 none = ok c ∧
    Replaces (fun k => Adjust.saturate_in_hsl_space k (fin (-0.5))) w c { c with comps := [fin 200, fin y1, fin z1] } ∧
    Replaces (fun k => Adjust.saturate_in_hsl_space k (fin 0.5)) w c { c with comps := [fin 200, fin y2, fin z2] } ∧ y1 ≤ y2 := by
  obtain ⟨c, e, hc, -, -⟩ := exists_hsl 200 0.5 0.25 1 none (by norm_num)
  obtain ⟨y1, z1, y2, z2, h1, h2, h3, -⟩ := C83_monotone_partial _ (Or.inl rfl) w c 200 0.5 0.25 hc (rnd_exact _) (rnd_exact _) (-0.5) 0.5 (by norm_num)
    (by rw [one_def, add_exact]; exact isFin_fin _) (by rw [one_def, add_exact]; exact isFin_fin _)
  exact ⟨c, y1, z1, y2, z2, e, h1, h2, (h3 rfl).1⟩

example (w : World) : ∃ c r, Color.construct .hsv [fin 200, fin 0.5, fin 0.25] 1 none = ok c ∧ (Makes (fun q => Adjust.luminate_in_hsl_space q pinf) w c r ∨
    Replaces (fun q => Adjust.luminate_in_hsl_space q pinf) w c r) ∧ ComponentsInRange r := by
  obtain ⟨c, ec⟩ := Conv.construct_total .hsv (vs := [fin 200, fin 0.5, fin 0.25]) 1 none rfl
  have hf := Conv.construct_result (t := .hsv) (by simp) rfl ec
  obtain ⟨r, h1, -, h2⟩ := C83_range _ (Or.inr (Or.inr (Or.inr rfl))) pinf .hsv w c ⟨by simp, by simp, hf.col, by simp [Cie]⟩ hf.rng
  exact ⟨c, r, ec, h1, h2⟩

/-! ## C84 -/

/-- **C84** The RGB variants make a new colour of the class of the given one, with its colour space, and change nothing else, for every amount. -/
theorem C84_rgb (f : Ptr → Fl → Prog Ptr) (hf : InRgb f) (p : Fl) (s : ColorType) (w : World) (c : Color) (hb : Base w s c) :
    ∃ r, Makes (fun q => f q p) w c r ∧ IsColor s r := by
  obtain ⟨g, hg⟩ := inRgb_cases hf p
  obtain ⟨-, -, -, -, r, -, -, -, -, -, -, hm, hbr, -⟩ := rgb_makes hb g
  exact ⟨r, hg ▸ hm, hbr.col⟩

/-- **C84 (partial)** The HSL variants do so too for colours of any other class.  Missing: HSL colours (`C84_hsl_violated`), the amount 0 (`C84_zero_violated`) and LCH colours. -/
theorem C84_hsl_partial (f : Ptr → Fl → Prog Ptr) (hf : InHsl f) (p : Fl) (hp : ¬ feq p 0) (s : ColorType) (w : World) (c : Color) (hb : Base w s c) (hs : s ≠ .hsl) :
    ∃ d x y z l r, Converts w c .hsl d ∧ d.comps = [x, y, z] ∧ Scaled f p x y z l ∧ Converts w { d with comps := l } s r ∧ Makes (fun q => f q p) w c r ∧ IsColor s r := by
  obtain ⟨d, x, y, z, l, r, h1, h2, h3, h4, hm, hbr, -⟩ := hsl_makes hb hs hf hp
  exact ⟨d, x, y, z, l, r, h1, h2, h3, h4, hm, hbr.col⟩

/-- **C84 is violated** for HSL colours: the given colour itself is modified and returned. -/
theorem C84_hsl_violated (w : World) (sp : Option Nat) [ExactModel] : ∃ c r, Color.construct .hsl [0, fin (1 / 2), fin (1 / 2)] 1 sp = ok c ∧
    Adjust.saturate_in_hsl_space (some 0) (fin 1) ⟨w, [c]⟩ = (ok (some 0), ⟨w, [r]⟩) ∧ c.comps = [fin 0, fin (1 / 2), fin (1 / 2)] ∧ r.comps = [fin 0, fin 1, fin (1 / 2)] := by
  obtain ⟨c, e, hc, -, -⟩ := exists_hsl 0 (1 / 2) (1 / 2) 1 sp (by norm_num)
  refine ⟨c, { c with comps := [fin 0, fin 1, fin (1 / 2)] }, by simpa only [zero_def] using e, ?_, hc.comps, rfl⟩
  have := hsl_replaces (w := w) (f := Adjust.saturate_in_hsl_space) (p := fin 1) hc.col (by simp [feq]) hc.comps (Or.inl ⟨rfl, rfl⟩) ⟨w, [c]⟩ 0 rfl rfl
  have e2 : fmax (fmin (fin (1 / 2) * (1 + fin 1)) 1) 0 = fin 1 := by
    simp only [one_def, zero_def, add_exact, mul_exact, fmin_fin, fmax_fin]
    norm_num
  rw [e2] at this
  exact this

/-- **C84 is violated** for the amount 0: the given pointer is returned instead of a new colour. -/
theorem C84_zero_violated (f : Ptr → Fl → Prog Ptr) (hf : InHsl f) (c : Color) (w : World) : ¬ ∃ r, Makes (fun q => f q 0) w c r := by
  rintro ⟨r, hm⟩
  obtain ⟨k, h', e, ⟨q, rfl, hq, -⟩, -⟩ := hm ⟨w, [c]⟩ 0 rfl rfl
  have e' := hsl_zero hf (p := 0) (by simp) (some 0) ⟨w, [c]⟩
  have e : f (some 0) 0 ⟨w, [c]⟩ = _ := e
  rw [e'] at e
  simp only [Prod.mk.injEq, ok_inj, Option.some.injEq] at e
  rw [← e.1] at hq
  simp at hq

/-- The hypotheses can be met: a CMYK colour saturated by 25 percent. -/
example (w : World) : ∃ c r, Color.construct .cmyk [1, fin 0.5, 0, 0] 1 none = ok c ∧ Makes (fun q => Adjust.saturate_in_hsl_space q (fin 0.25)) w c r ∧ IsColor .cmyk r := by
  obtain ⟨c, ec⟩ := Conv.construct_total .cmyk (vs := [1, fin 0.5, 0, 0]) 1 none rfl
  have hf := Conv.construct_result (t := .cmyk) (by simp) rfl ec
  obtain ⟨-, -, -, -, -, r, -, -, -, -, h1, h2⟩ := C84_hsl_partial _ (Or.inl rfl) (fin 0.25) (by simp only [zero_def, feq_fin]; norm_num) .cmyk w c ⟨by simp, by simp, hf.col, by simp [Cie]⟩ (by simp)
  exact ⟨c, r, ec, h1, h2⟩

/-! ## C94 -/

/-- **C94 (partial)** The by-reference variants write the colour that the pointer variants return into the given object and change no other object.
Missing: LCH colours (`C94_lch_violated`). -/
theorem C94_partial (f : Ptr → Fl → Prog Ptr) (hf : Adjustment f) (p : Fl) (s : ColorType) (w : World) (c : Color) (hb : Base w s c) :
    ∃ r, (Makes (fun q => f q p) w c r ∨ Replaces (fun q => f q p) w c r) ∧ IsColor s r ∧
      ∀ (h : Heap) (i : Nat), h.world = w → h.colors[i]? = some c → ∃ h', Adjust.byReference f i p h = (ok (), h') ∧ Overwrites h h' i r := by
  have hf : InRgb f ∨ InHsl f := by rcases hf with h | h | h | h <;> simp [InRgb, InHsl, h]
  rcases hf with hf | hf
  · obtain ⟨r, hm, hc⟩ := C84_rgb f hf p s w c hb
    exact ⟨r, Or.inl hm, hc, fun h i hw hi => hm.overwrites (by rw [hc.cls, hb.col.cls]) hw hi⟩
  · by_cases hp : feq p 0
    · have := replaces_self (w := w) (c := c) (hsl_zero hf hp)
      exact ⟨c, Or.inr this, hb.col, fun h i hw hi => this.overwrites hw hi⟩
    · by_cases hs : s = .hsl
      · subst hs
        obtain ⟨x, y, z, hx⟩ := Combine.hslColor hb.col
        have hx : c.comps = [x, y, z] := by rw [hx]
        obtain ⟨l, hl⟩ := scaled_exists hf p x y z
        have hlen : l.length = 3 := by rcases hl with ⟨-, rfl⟩ | ⟨-, rfl⟩ <;> rfl
        have := hsl_replaces (w := w) hb.col hp hx hl
        exact ⟨_, Or.inr this, ⟨hb.col.cls, hb.col.ctype, hlen, hb.col.maxv, hb.col.minv⟩, fun h i hw hi => this.overwrites hw hi⟩
      · obtain ⟨-, -, -, -, -, r, -, -, -, -, hm, hbr, -⟩ := hsl_makes hb hs hf hp
        exact ⟨r, Or.inl hm, hbr.col, fun h i hw hi => hm.overwrites (by rw [hbr.col.cls, hb.col.cls]) hw hi⟩

/-- **C94 is violated** by LCH colours: the pointer variants return the null pointer, which the by-reference variants dereference. -/
theorem C94_lch_violated (f : Ptr → Fl → Prog Ptr) (hf : Adjustment f) (p : Fl) (hp : ¬ feq p 0) (s : ColorType) (hs : s = .lchAb ∨ s = .lchUv) (c : Color) (h : Heap) (i : Nat)
    (hi : h.colors[i]? = some c) (hc : IsColor s c) (hw : h.world.Usable c.space) :
    ∃ h', f (some i) p h = (ok none, h') ∧ Adjust.byReference f i p h = (.ub, h') := by
  have hsd : s ≠ .undefined := by rcases hs with rfl | rfl <;> simp
  have hnull : ∀ p g, Converter.convertTo p s g = (ok none, g) := by rcases hs with rfl | rfl <;> exact fun _ _ => rfl
  have hload : ∀ g, load none g = (.ub, g) := fun _ => rfl
  suffices hk : ∃ h', f (some i) p h = (ok none, h') by
    obtain ⟨h', e⟩ := hk
    exact ⟨h', e, by simp only [Adjust.byReference, Prog.bind_def, e, hload]⟩
  have hf : InRgb f ∨ InHsl f := by rcases hf with h | h | h | h <;> simp [InRgb, InHsl, h]
  rcases hf with hf | hf
  · obtain ⟨g, hg⟩ := inRgb_cases hf p
    have hg : f (some i) p = Adjust.inRgb g (some i) := congrFun hg (some i)
    obtain ⟨d, e, hd, -⟩ := val_to_total (s := s) (t := .rgbDeep) (w := h.world) hsd (by simp) hc (fun _ _ => hw)
    obtain ⟨x, y, z, hx⟩ := Adjust.rgbColor hd
    obtain ⟨g0, g1, g2⟩ := Combine.getHsl (c := d) (x := x) (y := y) (z := z) (by rw [hx])
    obtain ⟨q, h1, e1, c1⟩ := Combine.convert_run hsd Combine.rgb_target hc hi e
    have f1 := c1.frame (by simp [Cie])
    refine ⟨⟨h1.world, h1.colors ++ [Color.mkRgbDeep (g x y z).1 (g x y z).2.1 (g x y z).2.2 d.alpha c.space]⟩, ?_⟩
    rw [hg]
    simp only [Adjust.inRgb, Prog.bind_def, e1, Combine.load_some c1.here, lift, g0, g1, g2, Combine.load_some (f1.2 _ _ hi), Color.construct_rgbDeep, Combine.alloc_run, hc.ctype, hnull]
  · obtain ⟨d, e, hd, -⟩ := val_to_total (s := s) (t := .hsl) (w := h.world) hsd (by simp) hc (fun _ _ => hw)
    obtain ⟨x, y, z, hx⟩ := Combine.hslColor hd
    obtain ⟨l, hl⟩ := scaled_exists hf p x y z
    obtain ⟨v, hv1, hv2, -⟩ := hsl_value hp hl hd (by rw [hx])
    obtain ⟨q, h1, e1, c1⟩ := Combine.convert_run hsd Combine.hsl_target hc hi e
    have f1 := c1.frame (by simp [Cie])
    have hql := (List.getElem?_eq_some_iff.mp c1.here).1
    have hil := (List.getElem?_eq_some_iff.mp hi).1
    have hq : h.colors.length ≤ q := by
      rcases c1.fresh with hh | hh
      · exact absurd hh.2.2.2 (by rw [hc.ctype]; rcases hs with rfl | rfl <;> simp)
      · exact hh.1
    have hi' : (h1.colors.set q { d with comps := l })[i]? = some c := by
      rw [List.getElem?_set_ne (by omega)]
      exact f1.2 i c hi
    refine ⟨⟨h1.world, h1.colors.set q { d with comps := l }⟩, ?_⟩
    rw [hv1]
    have hld : load (some i) ⟨h1.world, h1.colors.set q { d with comps := l }⟩ = (ok c, ⟨h1.world, h1.colors.set q { d with comps := l }⟩) := Combine.load_some hi'
    simp only [Adjust.inHsl, Prog.bind_def, e1, Combine.load_some c1.here, lift, hv2, store, hql, if_true, hld, hc.ctype, hnull]

/-- The hypotheses can be met: an XYZ colour adjusted in place. -/
example [ExactModel] [StdSort] : ∃ (w : World) (c : Color) (r : Color) (h' : Heap), Color.construct .xyz [fin 0.25, fin 0.5, fin 0.25] 1 (some 0) = ok c ∧
    Adjust.byReference Adjust.luminate_in_rgb_space 0 (fin 0.5) ⟨w, [c]⟩ = (ok (), h') ∧ Overwrites ⟨w, [c]⟩ h' 0 r := by
  obtain ⟨w, hw, -⟩ := exists_world .sRGB .g2_2
  obtain ⟨c, ec⟩ := Conv.construct_total .xyz (vs := [fin 0.25, fin 0.5, fin 0.25]) 1 (some 0) rfl
  have hf := Conv.construct_result (t := .xyz) (by simp) rfl ec
  obtain ⟨r, -, -, hr⟩ := C94_partial Adjust.luminate_in_rgb_space (by simp [Adjustment]) (fin 0.5) .xyz w c ⟨by simp, by simp, hf.col, fun _ => by rw [hf.space]; exact hw⟩
  obtain ⟨h', e1, e2⟩ := hr ⟨w, [c]⟩ 0 rfl rfl
  exact ⟨w, c, r, h', ec, e1, e2⟩

end

section
variable [FloatModel]

/-! ## C95 -/

/-- **C95** In every arithmetic, what the RGB variants do: the colour is converted to RGB_DEEP, there the weighted mean of the channels is subtracted with the amount as weight
or the channels are scaled, and the result is converted back. -/
theorem C95_converted (p : Fl) (s : ColorType) (w : World) (c : Color) (hb : Base w s c) :
    ∃ d x y z L, Converts w c .rgbDeep d ∧ d.comps = [x, y, z] ∧ L = lit 0.299 * x + lit 0.587 * y + lit 0.114 * z ∧
      (∃ e r, Color.construct .rgbDeep [x - p * (L - x), y - p * (L - y), z - p * (L - z)] d.alpha c.space = ok e ∧ Converts w e s r ∧
        Makes (fun q => Adjust.saturate_in_rgb_space q p) w c r) ∧
      ∃ e r, Color.construct .rgbDeep [x * (1 + p), y * (1 + p), z * (1 + p)] d.alpha c.space = ok e ∧ Converts w e s r ∧
        Makes (fun q => Adjust.luminate_in_rgb_space q p) w c r := by
  obtain ⟨d, x, y, z, r, e1, hd, -, -, hx, e2, hm, -⟩ := rgb_makes hb (Adjust.satRgb p)
  obtain ⟨d', x', y', z', r', e1', -, -, -, hx', e2', hm', -⟩ := rgb_makes hb (Adjust.lumRgb p)
  rw [e1, ok_inj] at e1'
  subst e1'
  rw [hx] at hx'
  simp only [List.cons.injEq, and_true] at hx'
  obtain ⟨rfl, rfl, rfl⟩ := hx'
  refine ⟨d, x, y, z, _, (converts_iff hb.defined (by simp) hb.col).mpr e1, hx, rfl, ⟨_, r, Color.construct_rgbDeep .., ?_, hm⟩, ⟨_, r', Color.construct_rgbDeep .., ?_, hm'⟩⟩
  · exact (converts_iff (by simp) hb.defined (Adjust.mkRgb_color ..)).mpr e2
  · exact (converts_iff (by simp) hb.defined (Adjust.mkRgb_color ..)).mpr e2'

end

section
variable [FloatModel] [ExactModel]

/-- The luma of Rec. 601. -/
noncomputable def AdjustSpec.luma (r g b : ℝ) : ℝ := 0.299 * r + 0.587 * g + 0.114 * b

/-- A number brought between 0 and 1. -/
noncomputable def AdjustSpec.unit (x : ℝ) : ℝ := max (min x 1) 0

omit [FloatModel] [ExactModel] in
theorem AdjustSpec.unit_id {x : ℝ} (h0 : 0 ≤ x) (h1 : x ≤ 1) : unit x = x := by rw [unit, min_eq_left h1, max_eq_left h0]

/-- **C95** In exact arithmetic, on an RGB_DEEP colour: saturating moves every channel away from the luma by the factor 1 + p, luminating multiplies every channel by 1 + p,
both limited to [0, 1]. -/
theorem C95_formulas (w : World) (c : Color) (r g b p : ℝ) (h : IsRgb c r g b) :
    Makes (fun q => Adjust.saturate_in_rgb_space q (fin p)) w c { c with comps := [fin (unit (luma r g b + (1 + p) * (r - luma r g b))),
      fin (unit (luma r g b + (1 + p) * (g - luma r g b))), fin (unit (luma r g b + (1 + p) * (b - luma r g b)))] } ∧
    Makes (fun q => Adjust.luminate_in_rgb_space q (fin p)) w c { c with comps := [fin (unit ((1 + p) * r)), fin (unit ((1 + p) * g)), fin (unit ((1 + p) * b))] } := by
  have hb : Base w .rgbDeep c := ⟨by simp, by simp, h.col, by simp [Cie]⟩
  have hal : c.alpha = c.malpha := by rw [Hue.rgb_eq h]; rfl
  obtain ⟨d, x, y, z, L, e1, hx, rfl, ⟨e, r1, a1, a2, a3⟩, ⟨e', r2, b1, b2, b3⟩⟩ := C95_converted (fin p) .rgbDeep w c hb
  have e1 := (converts_iff (by simp) (by simp) h.col).mp e1
  rw [Val.to, if_pos rfl, ok_inj] at e1
  subst e1
  rw [h.comps] at hx
  simp only [List.cons.injEq, and_true] at hx
  obtain ⟨rfl, rfl, rfl⟩ := hx
  rw [Color.construct_rgbDeep, ok_inj] at a1 b1
  have a2 := (converts_iff (s := .rgbDeep) (by simp) (by simp) (by rw [← a1]; exact Adjust.mkRgb_color ..)).mp a2
  have b2 := (converts_iff (s := .rgbDeep) (by simp) (by simp) (by rw [← b1]; exact Adjust.mkRgb_color ..)).mp b2
  rw [Val.to, if_pos rfl, ok_inj] at a2 b2
  have lim : ∀ v : ℝ, Color.clamp (fin v) 1 0 = fin (unit v) := fun v => by rw [one_def, zero_def, Color.clamp_fin]; rfl
  constructor
  · rw [← a2, ← a1] at a3
    convert a3 using 1
    simp only [lit_exact, mul_exact, add_exact, sub_exact, Color.mkRgbDeep, lim, hal]
    conv_lhs => rw [Hue.rgb_eq h]
    simp only [Hue.obj, luma, Color.maxOf, Color.minOf, Color.mk.injEq, List.cons.injEq, fin_inj, and_true, true_and]
    refine ⟨?_, ?_, ?_⟩ <;> congr 1 <;> ring
  · rw [← b2, ← b1] at b3
    convert b3 using 1
    simp only [one_def, mul_exact, add_exact, Color.mkRgbDeep, Hue.obj]
    simp only [← one_def, lim, hal]
    conv_lhs => rw [Hue.rgb_eq h]
    simp only [Hue.obj, Color.maxOf, Color.minOf, Color.mk.injEq, List.cons.injEq, fin_inj, and_true, true_and]
    refine ⟨?_, ?_, ?_⟩ <;> congr 1 <;> ring

/-- **C95** Saturating by -1 gives the grey of the same luma, luminating by -1 gives black. -/
theorem C95_minus_one (w : World) (c : Color) (r g b : ℝ) (h : IsRgb c r g b) :
    Makes (fun q => Adjust.saturate_in_rgb_space q (fin (-1))) w c { c with comps := [fin (luma r g b), fin (luma r g b), fin (luma r g b)] } ∧
    Makes (fun q => Adjust.luminate_in_rgb_space q (fin (-1))) w c { c with comps := [fin 0, fin 0, fin 0] } := by
  have hl0 : 0 ≤ luma r g b := by unfold luma; linarith [h.r0, h.g0, h.b0]
  have hl1 : luma r g b ≤ 1 := by unfold luma; linarith [h.r1, h.g1, h.b1]
  obtain ⟨h1, h2⟩ := C95_formulas w c r g b (-1) h
  simp only [add_neg_cancel, zero_mul, add_zero, unit_id hl0 hl1] at h1
  simp only [add_neg_cancel, zero_mul, unit_id le_rfl zero_le_one] at h2
  exact ⟨h1, h2⟩

/-- **C95** Saturating keeps the luma as long as no channel has to be limited. -/
theorem C95_luma (w : World) (c : Color) (r g b p : ℝ) (h : IsRgb c r g b) (hr : ∀ v ∈ [r, g, b], 0 ≤ luma r g b + (1 + p) * (v - luma r g b) ∧ luma r g b + (1 + p) * (v - luma r g b) ≤ 1) :
    ∃ r' g' b', Makes (fun q => Adjust.saturate_in_rgb_space q (fin p)) w c { c with comps := [fin r', fin g', fin b'] } ∧ luma r' g' b' = luma r g b := by
  have h1 := hr r (by simp)
  have h2 := hr g (by simp)
  have h3 := hr b (by simp)
  refine ⟨_, _, _, (C95_formulas w c r g b p h).1, ?_⟩
  rw [unit_id h1.1 h1.2, unit_id h2.1 h2.2, unit_id h3.1 h3.2]
  unfold luma
  ring

/-- The hypotheses can be met. -/
example (w : World) : ∃ r' g' b', Makes (fun q => Adjust.saturate_in_rgb_space q (fin (1 / 2))) w (rgbOf 0.5 0.25 0.75 1 none)
    { rgbOf 0.5 0.25 0.75 1 none with comps := [fin r', fin g', fin b'] } ∧ luma r' g' b' = luma 0.5 0.25 0.75 :=
  C95_luma w _ 0.5 0.25 0.75 (1 / 2) (isRgb_rgbOf _ _ (by norm_num)) (by
    intro v hv
    simp only [List.mem_cons, List.not_mem_nil, or_false] at hv
    rcases hv with rfl | rfl | rfl <;> norm_num [luma])

end
