import Verif.SessionSpec

/-! Helper lemmas for `Verif/Props/Sessions.lean`. -/

open Outcome Fl Prog ObjectSpec FrameSpec SessionSpec

namespace Tame
section
variable [FloatModel] {P : ColorType → Prop}

/-- Well-formed, and with components in range for the types with `P`. -/
def Ranged (P : ColorType → Prop) (t : ColorType) (c : Color) : Prop := IsColor t c ∧ (P t → ComponentsInRange c)

theorem ranged_of_inv {t : ColorType} {c : Color} (hi : ObjectLemmas.Inv c) (hc : c.cls = t) (ht : t ≠ .undefined) : Ranged P t c := by
  have : c.ctype = t := by
    rcases hi.cls with h | h
    · rw [← h, hc]
    · exact absurd (hc ▸ h) ht
  exact ⟨⟨hc, this, this ▸ hi.len, this ▸ hi.maxv, this ▸ hi.minv⟩, fun _ => hi.rng⟩

omit [FloatModel] in
theorem inv_of_color {t : ColorType} {c : Color} (ht : t ≠ .undefined) (hc : IsColor t c) (hr : ComponentsInRange c) : ObjectLemmas.Inv c := by
  have e := hc.ctype
  exact ⟨by rw [e]; exact ht, Or.inl (by rw [hc.cls, e]), by rw [e]; exact hc.len, by rw [e]; exact hc.maxv, by rw [e]; exact hc.minv, hr⟩

omit [FloatModel] in
/-- An object with the same class, type, components and limits. -/
theorem Ranged.congr {t : ColorType} {c c' : Color} (h : Ranged P t c) (h1 : c'.cls = c.cls) (h2 : c'.ctype = c.ctype) (h3 : c'.comps = c.comps) (h4 : c'.maxv = c.maxv) (h5 : c'.minv = c.minv) :
    Ranged P t c' := by
  obtain ⟨⟨a, b, e, f, g⟩, k⟩ := h
  refine ⟨⟨h1.trans a, h2.trans b, h3 ▸ e, h4.trans f, h5.trans g⟩, fun hp => ?_⟩
  have := k hp
  unfold ComponentsInRange at *
  intro i hi
  simp only [h2, h3] at hi ⊢
  exact this i (by simpa [h3] using hi)

theorem setComponent_kept {c c' : Color} {v : Fl} {i : Int} (e : c.setComponent v i = ok c') : Kept c c' ∧ c'.comps.length = c.comps.length := by
  rw [Color.setComponent, Color.setComponentLim_ok] at e
  obtain ⟨h0, h1, rfl⟩ := e
  exact ⟨rfl, by simp⟩

theorem setChannel_length {c c' : Color} {v : Fl} {i : Nat} (e : c.setChannel i v = ok c') : c'.comps.length = c.comps.length := by
  obtain ⟨-, -, -, -, -, -, h⟩ := ObjectLemmas.setChannel_frame e
  exact h.1

theorem isColor_kept {t : ColorType} {c c' : Color} (h : IsColor t c) (hk : Kept c c') (hl : c'.comps.length = c.comps.length) : IsColor t c' := by
  rw [hk]
  exact ⟨h.cls, h.ctype, hl.trans h.len, h.maxv, h.minv⟩

omit [FloatModel] in
theorem rng_undefined {c : Color} (h : IsColor .undefined c) : ComponentsInRange c := fun i hi => absurd hi (by simp [h.len, Color.count])

theorem ranged_closed : Closed (Ranged P) where
  col _ _ h := h.1
  make t vs al sp r ht hl h := by
    obtain ⟨h1, h2, -⟩ := ObjectLemmas.construct_inv ht hl h
    exact ranged_of_inv h1 h2 ht
  gamma t c g h := by
    refine ⟨⟨h.1.cls, h.1.ctype, by simpa [Color.applyGamma] using h.1.len, h.1.maxv, h.1.minv⟩, fun _ i hi => ?_⟩
    simp only [Color.applyGamma, List.getElem_map, h.1.ctype, h.1.maxv, h.1.minv]
    exact ObjectLemmas.clamp_channel _ _ _
  chan t c i v c' h e := by
    have hc := isColor_kept h.1 (setChannel_kept e) (setChannel_length e)
    refine ⟨hc, fun hp => ?_⟩
    by_cases ht : t = .undefined
    · subst ht; exact rng_undefined hc
    · exact ((inv_of_color ht h.1 (h.2 hp)).setChannel (by rw [h.1.cls, h.1.ctype]) e).rng
  comp t c i v c' h e := by
    have hc := isColor_kept h.1 (setComponent_kept e).1 (setComponent_kept e).2
    refine ⟨hc, fun hp => ?_⟩
    by_cases ht : t = .undefined
    · subst ht; exact rng_undefined hc
    · exact ((inv_of_color ht h.1 (h.2 hp)).setComponent e).rng
  alpha t c al h := h.congr rfl rfl rfl rfl rfl

theorem ranged_divide {t : ColorType} (hp : ¬ P t) {c : Color} (h : Ranged P t c) : Ranged P t c.alphaDivide := by
  refine ⟨?_, fun k => absurd k hp⟩
  unfold Color.alphaDivide
  split
  · exact h.1
  · exact ⟨h.1.cls, h.1.ctype, by simpa using h.1.len, h.1.maxv, h.1.minv⟩

theorem ranged_multiply {t : ColorType} (hp : ¬ P t) {c : Color} (h : Ranged P t c) : Ranged P t c.alphaMultiply :=
  ⟨⟨h.1.cls, h.1.ctype, by simpa [Color.alphaMultiply] using h.1.len, h.1.maxv, h.1.minv⟩, fun k => absurd k hp⟩

variable {F : Nat → Prop}

/-- What a promise means. -/
def Keeps (Q : ColorType → Color → Prop) (F : Nat → Prop) : Promise → Heap → Ptr → Prop
  | .typed t => IsA Q F t
  | .like p => Like Q F p

theorem one {Q : ColorType → Color → Prop} {p : Prog Ptr} {pr : Promise} (h : Spec Q F p (Keeps Q F pr)) : Spec Q F p (fun h q => ∀ x ∈ [q], Keeps Q F pr h x) :=
  Spec.mono h fun _ _ h x hx => by simp at hx; subst hx; exact h

theorem none_of {α : Type} {Q : ColorType → Color → Prop} {R : Heap → α → Prop} {p : Prog α} {pr : Promise} (h : Spec Q F p R) :
    Spec Q F p (fun h _ => ∀ x ∈ ([] : List Ptr), Keeps Q F pr h x) :=
  Spec.mono h fun _ _ _ x hx => by simp at hx

theorem s_dispatcher {Q : ColorType → Color → Prop} (hQ : Closed Q) {p : Ptr} (hp : Within F p) (t : ColorType) : Spec Q F (Conv.dispatcher t p) (IsA Q F t) := by
  cases t
  · exact s_to_rgb_true hQ hp
  · exact s_to_rgb_deep hQ hp
  · exact s_to_grey_true hQ hp
  · exact s_to_grey_deep hQ hp
  · exact s_to_cmyk hQ hp
  · exact s_to_hsi hQ hp
  · exact s_to_hsv hQ hp
  · exact s_to_hsl hQ hp
  · exact s_to_hcy hQ hp
  · exact s_to_xyz hQ hp
  · exact s_to_xyy hQ hp
  · exact s_to_cieluv hQ hp
  · exact s_to_lab hQ hp
  · exact s_to_lch_ab hQ hp
  · exact s_to_lch_uv hQ hp
  · exact s_none _

theorem s_direct_rgb_true {Q : ColorType → Color → Prop} (hQ : Closed Q) {p : Ptr} (hp : Within F p) (t : ColorType) (ht : .rgbTrue ≠ t) : Spec Q F (Conv.direct_rgb_true t p) (IsA Q F t) := by
  cases t
  · exact absurd rfl ht
  · exact s_rgb_true_to_rgb_deep hQ hp
  · exact s_rgb_true_to_grey_true hQ hp
  · exact s_rgb_true_to_grey_deep hQ hp
  · exact s_rgb_true_to_cmyk hQ hp
  · exact s_rgb_true_to_hsi hQ hp
  · exact s_rgb_true_to_hsv hQ hp
  · exact s_rgb_true_to_hsl hQ hp
  · exact s_rgb_true_to_hcy hQ hp
  · exact s_rgb_true_to_xyz hQ hp
  · exact s_rgb_true_to_xyy hQ hp
  · exact s_rgb_true_to_cieluv hQ hp
  · exact s_rgb_true_to_lab hQ hp
  · exact s_rgb_true_to_lch_ab hQ hp
  · exact s_rgb_true_to_lch_uv hQ hp
  · exact s_none _

theorem s_direct_rgb_deep {Q : ColorType → Color → Prop} (hQ : Closed Q) {p : Ptr} (hp : Within F p) (t : ColorType) (ht : .rgbDeep ≠ t) : Spec Q F (Conv.direct_rgb_deep t p) (IsA Q F t) := by
  cases t
  · exact s_rgb_deep_to_rgb_true hQ hp
  · exact absurd rfl ht
  · exact s_rgb_deep_to_grey_true hQ hp
  · exact s_rgb_deep_to_grey_deep hQ hp
  · exact s_rgb_deep_to_cmyk hQ hp
  · exact s_rgb_deep_to_hsi hQ hp
  · exact s_rgb_deep_to_hsv hQ hp
  · exact s_rgb_deep_to_hsl hQ hp
  · exact s_rgb_deep_to_hcy hQ hp
  · exact s_rgb_deep_to_xyz hQ hp
  · exact s_rgb_deep_to_xyy hQ hp
  · exact s_rgb_deep_to_cieluv hQ hp
  · exact s_rgb_deep_to_lab hQ hp
  · exact s_rgb_deep_to_lch_ab hQ hp
  · exact s_rgb_deep_to_lch_uv hQ hp
  · exact s_none _

theorem s_direct_grey_true {Q : ColorType → Color → Prop} (hQ : Closed Q) {p : Ptr} (hp : Within F p) (t : ColorType) (ht : .greyTrue ≠ t) : Spec Q F (Conv.direct_grey_true t p) (IsA Q F t) := by
  cases t
  · exact s_grey_true_to_rgb_true hQ hp
  · exact s_grey_true_to_rgb_deep hQ hp
  · exact absurd rfl ht
  · exact s_grey_true_to_grey_deep hQ hp
  · exact s_grey_true_to_cmyk hQ hp
  · exact s_grey_true_to_hsi hQ hp
  · exact s_grey_true_to_hsv hQ hp
  · exact s_grey_true_to_hsl hQ hp
  · exact s_grey_true_to_hcy hQ hp
  · exact s_grey_true_to_xyz hQ hp
  · exact s_grey_true_to_xyy hQ hp
  · exact s_grey_true_to_cieluv hQ hp
  · exact s_grey_true_to_lab hQ hp
  · exact s_grey_true_to_lch_ab hQ hp
  · exact s_grey_true_to_lch_uv hQ hp
  · exact s_none _

theorem s_direct_grey_deep {Q : ColorType → Color → Prop} (hQ : Closed Q) {p : Ptr} (hp : Within F p) (t : ColorType) (ht : .greyDeep ≠ t) : Spec Q F (Conv.direct_grey_deep t p) (IsA Q F t) := by
  cases t
  · exact s_grey_deep_to_rgb_true hQ hp
  · exact s_grey_deep_to_rgb_deep hQ hp
  · exact s_grey_deep_to_grey_true hQ hp
  · exact absurd rfl ht
  · exact s_grey_deep_to_cmyk hQ hp
  · exact s_grey_deep_to_hsi hQ hp
  · exact s_grey_deep_to_hsv hQ hp
  · exact s_grey_deep_to_hsl hQ hp
  · exact s_grey_deep_to_hcy hQ hp
  · exact s_grey_deep_to_xyz hQ hp
  · exact s_grey_deep_to_xyy hQ hp
  · exact s_grey_deep_to_cieluv hQ hp
  · exact s_grey_deep_to_lab hQ hp
  · exact s_grey_deep_to_lch_ab hQ hp
  · exact s_grey_deep_to_lch_uv hQ hp
  · exact s_none _

theorem s_direct_cmyk {Q : ColorType → Color → Prop} (hQ : Closed Q) {p : Ptr} (hp : Within F p) (t : ColorType) (ht : .cmyk ≠ t) : Spec Q F (Conv.direct_cmyk t p) (IsA Q F t) := by
  cases t
  · exact s_cmyk_to_rgb_true hQ hp
  · exact s_cmyk_to_rgb_deep hQ hp
  · exact s_cmyk_to_grey_true hQ hp
  · exact s_cmyk_to_grey_deep hQ hp
  · exact absurd rfl ht
  · exact s_cmyk_to_hsi hQ hp
  · exact s_cmyk_to_hsv hQ hp
  · exact s_cmyk_to_hsl hQ hp
  · exact s_cmyk_to_hcy hQ hp
  · exact s_cmyk_to_xyz hQ hp
  · exact s_cmyk_to_xyy hQ hp
  · exact s_cmyk_to_cieluv hQ hp
  · exact s_cmyk_to_lab hQ hp
  · exact s_cmyk_to_lch_ab hQ hp
  · exact s_cmyk_to_lch_uv hQ hp
  · exact s_none _

theorem s_direct_hsi {Q : ColorType → Color → Prop} (hQ : Closed Q) {p : Ptr} (hp : Within F p) (t : ColorType) (ht : .hsi ≠ t) : Spec Q F (Conv.direct_hsi t p) (IsA Q F t) := by
  cases t
  · exact s_hsi_to_rgb_true hQ hp
  · exact s_hsi_to_rgb_deep hQ hp
  · exact s_hsi_to_grey_true hQ hp
  · exact s_hsi_to_grey_deep hQ hp
  · exact s_hsi_to_cmyk hQ hp
  · exact absurd rfl ht
  · exact s_hsi_to_hsv hQ hp
  · exact s_hsi_to_hsl hQ hp
  · exact s_hsi_to_hcy hQ hp
  · exact s_hsi_to_xyz hQ hp
  · exact s_hsi_to_xyy hQ hp
  · exact s_hsi_to_cieluv hQ hp
  · exact s_hsi_to_lab hQ hp
  · exact s_hsi_to_lch_ab hQ hp
  · exact s_hsi_to_lch_uv hQ hp
  · exact s_none _

theorem s_direct_hsv {Q : ColorType → Color → Prop} (hQ : Closed Q) {p : Ptr} (hp : Within F p) (t : ColorType) (ht : .hsv ≠ t) : Spec Q F (Conv.direct_hsv t p) (IsA Q F t) := by
  cases t
  · exact s_hsv_to_rgb_true hQ hp
  · exact s_hsv_to_rgb_deep hQ hp
  · exact s_hsv_to_grey_true hQ hp
  · exact s_hsv_to_grey_deep hQ hp
  · exact s_hsv_to_cmyk hQ hp
  · exact s_hsv_to_hsi hQ hp
  · exact absurd rfl ht
  · exact s_hsv_to_hsl hQ hp
  · exact s_hsv_to_hcy hQ hp
  · exact s_hsv_to_xyz hQ hp
  · exact s_hsv_to_xyy hQ hp
  · exact s_hsv_to_cieluv hQ hp
  · exact s_hsv_to_lab hQ hp
  · exact s_hsv_to_lch_ab hQ hp
  · exact s_hsv_to_lch_uv hQ hp
  · exact s_none _

theorem s_direct_hsl {Q : ColorType → Color → Prop} (hQ : Closed Q) {p : Ptr} (hp : Within F p) (t : ColorType) (ht : .hsl ≠ t) : Spec Q F (Conv.direct_hsl t p) (IsA Q F t) := by
  cases t
  · exact s_hsl_to_rgb_true hQ hp
  · exact s_hsl_to_rgb_deep hQ hp
  · exact s_hsl_to_grey_true hQ hp
  · exact s_hsl_to_grey_deep hQ hp
  · exact s_hsl_to_cmyk hQ hp
  · exact s_hsl_to_hsi hQ hp
  · exact s_hsl_to_hsv hQ hp
  · exact absurd rfl ht
  · exact s_hsl_to_hcy hQ hp
  · exact s_hsl_to_xyz hQ hp
  · exact s_hsl_to_xyy hQ hp
  · exact s_hsl_to_cieluv hQ hp
  · exact s_hsl_to_lab hQ hp
  · exact s_hsl_to_lch_ab hQ hp
  · exact s_hsl_to_lch_uv hQ hp
  · exact s_none _

theorem s_direct_hcy {Q : ColorType → Color → Prop} (hQ : Closed Q) {p : Ptr} (hp : Within F p) (t : ColorType) (ht : .hcy ≠ t) : Spec Q F (Conv.direct_hcy t p) (IsA Q F t) := by
  cases t
  · exact s_hcy_to_rgb_true hQ hp
  · exact s_hcy_to_rgb_deep hQ hp
  · exact s_hcy_to_grey_true hQ hp
  · exact s_hcy_to_grey_deep hQ hp
  · exact s_hcy_to_cmyk hQ hp
  · exact s_hcy_to_hsi hQ hp
  · exact s_hcy_to_hsv hQ hp
  · exact s_hcy_to_hsl hQ hp
  · exact absurd rfl ht
  · exact s_hcy_to_xyz hQ hp
  · exact s_hcy_to_xyy hQ hp
  · exact s_hcy_to_cieluv hQ hp
  · exact s_hcy_to_lab hQ hp
  · exact s_hcy_to_lch_ab hQ hp
  · exact s_hcy_to_lch_uv hQ hp
  · exact s_none _

theorem s_direct_xyz {Q : ColorType → Color → Prop} (hQ : Closed Q) {p : Ptr} (hp : Within F p) (t : ColorType) (ht : .xyz ≠ t) : Spec Q F (Conv.direct_xyz t p) (IsA Q F t) := by
  cases t
  · exact s_xyz_to_rgb_true hQ hp
  · exact s_xyz_to_rgb_deep hQ hp
  · exact s_xyz_to_grey_true hQ hp
  · exact s_xyz_to_grey_deep hQ hp
  · exact s_xyz_to_cmyk hQ hp
  · exact s_xyz_to_hsi hQ hp
  · exact s_xyz_to_hsv hQ hp
  · exact s_xyz_to_hsl hQ hp
  · exact s_xyz_to_hcy hQ hp
  · exact absurd rfl ht
  · exact s_xyz_to_xyy hQ hp
  · exact s_xyz_to_cieluv hQ hp
  · exact s_xyz_to_lab hQ hp
  · exact s_xyz_to_lch_ab hQ hp
  · exact s_xyz_to_lch_uv hQ hp
  · exact s_none _

theorem s_direct_xyy {Q : ColorType → Color → Prop} (hQ : Closed Q) {p : Ptr} (hp : Within F p) (t : ColorType) (ht : .xyy ≠ t) : Spec Q F (Conv.direct_xyy t p) (IsA Q F t) := by
  cases t
  · exact s_xyy_to_rgb_true hQ hp
  · exact s_xyy_to_rgb_deep hQ hp
  · exact s_xyy_to_grey_true hQ hp
  · exact s_xyy_to_grey_deep hQ hp
  · exact s_xyy_to_cmyk hQ hp
  · exact s_xyy_to_hsi hQ hp
  · exact s_xyy_to_hsv hQ hp
  · exact s_xyy_to_hsl hQ hp
  · exact s_xyy_to_hcy hQ hp
  · exact s_xyy_to_xyz hQ hp
  · exact absurd rfl ht
  · exact s_xyy_to_cieluv hQ hp
  · exact s_xyy_to_lab hQ hp
  · exact s_xyy_to_lch_ab hQ hp
  · exact s_xyy_to_lch_uv hQ hp
  · exact s_none _

theorem s_direct_cieluv {Q : ColorType → Color → Prop} (hQ : Closed Q) {p : Ptr} (hp : Within F p) (t : ColorType) (ht : .cieluv ≠ t) : Spec Q F (Conv.direct_cieluv t p) (IsA Q F t) := by
  cases t
  · exact s_cieluv_to_rgb_true hQ hp
  · exact s_cieluv_to_rgb_deep hQ hp
  · exact s_cieluv_to_grey_true hQ hp
  · exact s_cieluv_to_grey_deep hQ hp
  · exact s_cieluv_to_cmyk hQ hp
  · exact s_cieluv_to_hsi hQ hp
  · exact s_cieluv_to_hsv hQ hp
  · exact s_cieluv_to_hsl hQ hp
  · exact s_cieluv_to_hcy hQ hp
  · exact s_cieluv_to_xyz hQ hp
  · exact s_cieluv_to_xyy hQ hp
  · exact absurd rfl ht
  · exact s_cieluv_to_lab hQ hp
  · exact s_cieluv_to_lch_ab hQ hp
  · exact s_cieluv_to_lch_uv hQ hp
  · exact s_none _

theorem s_direct_lab {Q : ColorType → Color → Prop} (hQ : Closed Q) {p : Ptr} (hp : Within F p) (t : ColorType) (ht : .lab ≠ t) : Spec Q F (Conv.direct_lab t p) (IsA Q F t) := by
  cases t
  · exact s_lab_to_rgb_true hQ hp
  · exact s_lab_to_rgb_deep hQ hp
  · exact s_lab_to_grey_true hQ hp
  · exact s_lab_to_grey_deep hQ hp
  · exact s_lab_to_cmyk hQ hp
  · exact s_lab_to_hsi hQ hp
  · exact s_lab_to_hsv hQ hp
  · exact s_lab_to_hsl hQ hp
  · exact s_lab_to_hcy hQ hp
  · exact s_lab_to_xyz hQ hp
  · exact s_lab_to_xyy hQ hp
  · exact s_lab_to_cieluv hQ hp
  · exact absurd rfl ht
  · exact s_lab_to_lch_ab hQ hp
  · exact s_lab_to_lch_uv hQ hp
  · exact s_none _

theorem s_direct_lch_ab {Q : ColorType → Color → Prop} (hQ : Closed Q) {p : Ptr} (hp : Within F p) (t : ColorType) (ht : .lchAb ≠ t) : Spec Q F (Conv.direct_lch_ab t p) (IsA Q F t) := by
  cases t
  · exact s_lch_ab_to_rgb_true hQ hp
  · exact s_lch_ab_to_rgb_deep hQ hp
  · exact s_lch_ab_to_grey_true hQ hp
  · exact s_lch_ab_to_grey_deep hQ hp
  · exact s_lch_ab_to_cmyk hQ hp
  · exact s_lch_ab_to_hsi hQ hp
  · exact s_lch_ab_to_hsv hQ hp
  · exact s_lch_ab_to_hsl hQ hp
  · exact s_lch_ab_to_hcy hQ hp
  · exact s_lch_ab_to_xyz hQ hp
  · exact s_lch_ab_to_xyy hQ hp
  · exact s_lch_ab_to_cieluv hQ hp
  · exact s_lch_ab_to_lab hQ hp
  · exact absurd rfl ht
  · exact s_lch_ab_to_lch_uv hQ hp
  · exact s_none _

theorem s_direct_lch_uv {Q : ColorType → Color → Prop} (hQ : Closed Q) {p : Ptr} (hp : Within F p) (t : ColorType) (ht : .lchUv ≠ t) : Spec Q F (Conv.direct_lch_uv t p) (IsA Q F t) := by
  cases t
  · exact s_lch_uv_to_rgb_true hQ hp
  · exact s_lch_uv_to_rgb_deep hQ hp
  · exact s_lch_uv_to_grey_true hQ hp
  · exact s_lch_uv_to_grey_deep hQ hp
  · exact s_lch_uv_to_cmyk hQ hp
  · exact s_lch_uv_to_hsi hQ hp
  · exact s_lch_uv_to_hsv hQ hp
  · exact s_lch_uv_to_hsl hQ hp
  · exact s_lch_uv_to_hcy hQ hp
  · exact s_lch_uv_to_xyz hQ hp
  · exact s_lch_uv_to_xyy hQ hp
  · exact s_lch_uv_to_cieluv hQ hp
  · exact s_lch_uv_to_lab hQ hp
  · exact s_lch_uv_to_lch_ab hQ hp
  · exact absurd rfl ht
  · exact s_none _

theorem s_direct {Q : ColorType → Color → Prop} (hQ : Closed Q) {p : Ptr} (hp : Within F p) (s t : ColorType) (ht : s ≠ t) : Spec Q F (Conv.direct s t p) (IsA Q F t) := by
  cases s
  · exact s_direct_rgb_true hQ hp t ht
  · exact s_direct_rgb_deep hQ hp t ht
  · exact s_direct_grey_true hQ hp t ht
  · exact s_direct_grey_deep hQ hp t ht
  · exact s_direct_cmyk hQ hp t ht
  · exact s_direct_hsi hQ hp t ht
  · exact s_direct_hsv hQ hp t ht
  · exact s_direct_hsl hQ hp t ht
  · exact s_direct_hcy hQ hp t ht
  · exact s_direct_xyz hQ hp t ht
  · exact s_direct_xyy hQ hp t ht
  · exact s_direct_cieluv hQ hp t ht
  · exact s_direct_lab hQ hp t ht
  · exact s_direct_lch_ab hQ hp t ht
  · exact s_direct_lch_uv hQ hp t ht
  · exact s_none _

theorem call_spec {blends : Prop} (hb : blends → ¬ P .rgbDeep) {args : List Ptr} {α : Type} {p : Prog α} {res : α → List Ptr} {pr : Promise} (hc : Call blends args α p res pr)
    (hF : ∀ q ∈ args, Within F q) : Spec (Ranged P) F p (fun h a => ∀ q ∈ res a, Keeps (Ranged P) F pr h q) := by
  have hQ : Closed (Ranged P) := ranged_closed
  have f1 : ∀ {a : Ptr} {l : List Ptr}, args = a :: l → Within F a := fun e => hF _ (by simp [e])
  have f2 : ∀ {a b : Ptr} {l : List Ptr}, args = a :: b :: l → Within F b := fun e => hF _ (by simp [e])
  cases hc
  case create t vs al sp ht hl => exact one (spec_lift_bind fun r hr => spec_alloc ht (hQ.make t vs al sp r ht hl hr))
  case hexInt code sp =>
    exact one (spec_lift_bind fun r hr => spec_alloc (t := .rgbTrue) (by decide) (ranged_of_inv (ObjectLemmas.hexInt_inv hr).1 (ObjectLemmas.hexInt_inv hr).2.1 (by decide)))
  case hexString s sp =>
    refine one (spec_lift_bind fun r hr => spec_alloc (t := .rgbTrue) (by decide) ?_)
    obtain ⟨_, _, _, _, e⟩ := ObjectLemmas.hexString_cases hr
    exact ranged_of_inv (ObjectLemmas.hexFields_inv e).1 (ObjectLemmas.hexFields_inv e).2.1 (by decide)
  case copy p =>
    refine one (spec_like hQ fun c t ht hq => ?_)
    rw [(hQ.col _ _ hq).ctype]
    exact spec_alloc ht (hq.congr rfl rfl rfl rfl rfl)
  case fromBase t p ht =>
    refine one (spec_load_bind fun c t' ht' hq => spec_lift_bind fun r hr => spec_alloc ht ?_)
    unfold Color.fromBase Outcome.throwNewInvalid at hr
    split at hr
    · next hh =>
      simp only [ok_inj] at hr
      subst hr
      have : t' = t := by rw [← hq.1.ctype, hh.1]
      subst this
      exact hq.congr hq.1.cls.symm hq.1.ctype.symm rfl rfl rfl
    · simp at hr
  case convertTo p t => exact one (s_convertTo hQ (f1 rfl) t)
  case dispatcher p t => exact one (s_dispatcher hQ (f1 rfl) t)
  case direct p s t ht => exact one (s_direct hQ (f1 rfl) s t ht)
  case blend us ud ub f p q hbl => exact one (s_operator hQ (fun _ h => ranged_divide (hb hbl) h) us ud ub f (f1 rfl) (f2 rfl))
  case hue us ud p q => exact one (s_hue hQ us ud (f1 rfl) (f2 rfl))
  case saturation us ud p q => exact one (s_saturation hQ us ud (f1 rfl) (f2 rfl))
  case color us ud p q => exact one (s_color hQ us ud (f1 rfl) (f2 rfl))
  case luminosity us ud p q => exact one (s_luminosity hQ us ud (f1 rfl) (f2 rfl))
  case add w1 w2 ia p q => exact one (s_add hQ w1 w2 ia (f1 rfl) (f2 rfl))
  case addOf t w1 w2 ia p q ht => exact one (s_addOf hQ t ht w1 w2 ia (f1 rfl) (f2 rfl))
  case mix w ia p q => exact one (s_mix hQ w ia (f1 rfl) (f2 rfl))
  case mixOf t w ia p q ht => exact one (s_mixOf hQ t ht w ia (f1 rfl) (f2 rfl))
  case subtract w ia p q => exact one (s_subtract hQ w ia (f1 rfl) (f2 rfl))
  case subOf t w ia p q ht => exact one (s_subOf hQ t ht w ia (f1 rfl) (f2 rfl))
  case average t ia ht => exact one (s_average hQ t ht ia _)
  case squared p q t => exact none_of (s_squared hQ (f1 rfl) (f2 rfl) t)
  case euclidean p q t => exact none_of (s_euclidean hQ (f1 rfl) (f2 rfl) t)
  case weighted p q => exact none_of (spec_between (fun _ => s_to_rgb_deep hQ) _ (f1 rfl) (f2 rfl))
  case cie76 p q => exact none_of (spec_between (fun _ => s_to_lab hQ) _ (f1 rfl) (f2 rfl))
  case cie94 p q => exact none_of (spec_between (fun _ => s_to_lab hQ) _ (f1 rfl) (f2 rfl))
  case cie00 p q => exact none_of (spec_between (fun _ => s_to_lab hQ) _ (f1 rfl) (f2 rfl))
  case cmc p q => exact none_of (spec_between (fun _ => s_to_lab hQ) _ (f1 rfl) (f2 rfl))
  case saturateRgb p x => exact one (s_saturate_rgb hQ (f1 rfl) x)
  case saturateHsl p x => exact one (s_saturate_hsl hQ (f1 rfl) x)
  case luminateRgb p x => exact one (s_luminate_rgb hQ (f1 rfl) x)
  case luminateHsl p x => exact one (s_luminate_hsl hQ (f1 rfl) x)
  case combination p n => exact s_create_combination hQ (f1 rfl) n
  case complimentary p => exact one (s_create_complimentary hQ (f1 rfl))
  case triplet p => exact s_create_combination hQ (f1 rfl) 3
  case quartet p => exact s_create_combination hQ (f1 rfl) 4
  case quintet p => exact s_create_combination hQ (f1 rfl) 5
  case analogous p x => exact s_create_analogous hQ (f1 rfl) x
  case monochromatic p mode x n => exact s_create_monochromatic hQ (f1 rfl) mode x n
  case complimentarySplit p x => exact s_create_complimentary_split hQ (f1 rfl) x

/-! ### Writing -/

/-- The memory after a function that writes to the object at `i`. -/
structure Wrote (i : Nat) (h h' : Heap) : Prop where
  world : h'.world = h.world
  others : ∀ (j : Nat) c, j ≠ i → h.colors[j]? = some c → h'.colors[j]? = some c
  here : ∀ c, h.colors[i]? = some c → ∃ c', h'.colors[i]? = some c' ∧ c'.cls = c.cls ∧ c'.ctype = c.ctype

theorem wrote_refl (i : Nat) (h : Heap) : Wrote i h h := ⟨rfl, fun _ _ _ h => h, fun c hc => ⟨c, hc, rfl, rfl⟩⟩

theorem rewrite_spec {Q : ColorType → Color → Prop} (hQ : Closed Q) {i : Nat} {g : Color → Outcome Color} (hg : ∀ t c d, t ≠ .undefined → Q t c → g c = ok d → Q t d) (h : Heap) (hgood : Good Q h) :
    Good Q (rewrite i g h).2 ∧ Wrote i h (rewrite i g h).2 := by
  rcases load_cases (some i) h with ⟨n, c, hn, hc, e⟩ | e
  · obtain rfl := Option.some.inj hn
    have hi := (List.getElem?_eq_some_iff.mp hc).1
    obtain ⟨t, ht, hq⟩ := hgood i c hc
    cases o : g c with
    | ok d =>
      have : rewrite i g h = (ok (), ⟨h.world, h.colors.set i d⟩) := by
        rw [rewrite, bind_def, e]; simp [bind_def, lift, o, store, hi]
      rw [this]
      have hd := hg t c d ht hq o
      refine ⟨fun j x hx => ?_, rfl, fun j x hj hx => ?_, fun x hx => ?_⟩
      · simp only at hx
        by_cases hj : j = i
        · subst hj
          rw [List.getElem?_set_self hi] at hx
          obtain rfl := Option.some.inj hx
          exact ⟨t, ht, hd⟩
        · rw [List.getElem?_set_ne (fun h => hj h.symm)] at hx
          exact hgood j x hx
      · rw [List.getElem?_set_ne (fun h => hj h.symm)]; exact hx
      · rw [hc] at hx
        obtain rfl := Option.some.inj hx
        exact ⟨d, by simp [hi], by rw [(hQ.col _ _ hd).cls, (hQ.col _ _ hq).cls], by rw [(hQ.col _ _ hd).ctype, (hQ.col _ _ hq).ctype]⟩
    | throw e' =>
      have : rewrite i g h = (.throw e', h) := by rw [rewrite, bind_def, e]; simp [bind_def, lift, o]
      rw [this]; exact ⟨hgood, wrote_refl i h⟩
    | ub =>
      have : rewrite i g h = (.ub, h) := by rw [rewrite, bind_def, e]; simp [bind_def, lift, o]
      rw [this]; exact ⟨hgood, wrote_refl i h⟩
  · have : rewrite i g h = (.ub, h) := by rw [rewrite, bind_def, e]
    rw [this]; exact ⟨hgood, wrote_refl i h⟩

theorem wrote_after {i : Nat} {h h' : Heap} (ha : After (fun j => j = i ∨ h.colors.length ≤ j) h h') : Wrote i h h' := by
  refine ⟨ha.world, fun j c hj hc => ha.same j c (fun hh => ?_) hc, fun c hc => ?_⟩
  · rcases hh with hh | hh
    · exact hj hh
    · exact absurd (List.getElem?_eq_some_iff.mp hc).1 (by omega)
  · obtain ⟨c', hc', k⟩ := ha.there i c hc
    exact ⟨c', hc', by rw [k], by rw [k]⟩

theorem byReference_spec {Q : ColorType → Color → Prop} (hQ : Closed Q) {i : Nat} {f : Ptr → Fl → Prog Ptr} {x : Fl}
    (hf : ∀ F : Nat → Prop, F i → Spec Q F (f (some i) x) (Like Q F (some i))) (h : Heap) (hgood : Good Q h) :
    Good Q (Adjust.byReference f i x h).2 ∧ Wrote i h (Adjust.byReference f i x h).2 := by
  obtain ⟨k1, k2, k3⟩ := hf (fun j => j = i ∨ h.colors.length ≤ j) (Or.inl rfl) h hgood (fun j hj => Or.inr hj)
  rcases e : f (some i) x h with ⟨o, h'⟩
  rw [e] at k1 k2 k3
  have hw := wrote_after k1
  cases o with
  | throw e' =>
    have : Adjust.byReference f i x h = (.throw e', h') := by rw [Adjust.byReference, bind_def, e]
    rw [this]; exact ⟨k2, hw⟩
  | ub =>
    have : Adjust.byReference f i x h = (.ub, h') := by rw [Adjust.byReference, bind_def, e]
    rw [this]; exact ⟨k2, hw⟩
  | ok q =>
    have hl := k3 q rfl
    rcases load_cases q h' with ⟨n, r, rfl, hr, e1⟩ | e1
    · rcases load_cases (some i) h' with ⟨m, c, hm, hc, e2⟩ | e2
      · obtain rfl := Option.some.inj hm
        have hi := (List.getElem?_eq_some_iff.mp hc).1
        have run : Adjust.byReference f i x h = (ok (), ⟨h'.world, h'.colors.set i { r with cls := c.cls }⟩) := by
          rw [Adjust.byReference, bind_def, e]
          simp only [bind_def, e1, e2]
          simp [store, hi]
        rw [run]
        obtain ⟨t, ht, hq⟩ := k2 i c hc
        have hr' : Q t r := by
          rcases hl.2 with hh | ⟨m, y, hm, hy, k⟩
          · obtain rfl := Option.some.inj hh
            rw [hc] at hr
            obtain rfl := Option.some.inj hr
            exact hq
          · obtain rfl := Option.some.inj hm
            rw [hc] at hy
            obtain rfl := Option.some.inj hy
            obtain ⟨-, z, hz, q'⟩ := k n rfl
            rw [hr] at hz
            obtain rfl := Option.some.inj hz
            rw [(hQ.col _ _ hq).ctype] at q'
            exact q'
        have same : ({ r with cls := c.cls } : Color) = r := by rw [(hQ.col _ _ hq).cls, ← (hQ.col _ _ hr').cls]
        rw [same]
        refine ⟨fun j y hy => ?_, hw.world, fun j y hj hy => ?_, fun y hy => ?_⟩
        · simp only at hy
          by_cases hj : j = i
          · subst hj
            rw [List.getElem?_set_self hi] at hy
            obtain rfl := Option.some.inj hy
            exact ⟨t, ht, hr'⟩
          · rw [List.getElem?_set_ne (fun h => hj h.symm)] at hy
            exact k2 j y hy
        · rw [List.getElem?_set_ne (fun h => hj h.symm)]; exact hw.others j y hj hy
        · obtain ⟨c', hc', s1, s2⟩ := hw.here y hy
          rw [hc] at hc'
          obtain rfl := Option.some.inj hc'
          exact ⟨r, by simp [hi], by rw [← s1, (hQ.col _ _ hr').cls, (hQ.col _ _ hq).cls], by rw [← s2, (hQ.col _ _ hr').ctype, (hQ.col _ _ hq).ctype]⟩
      · have : Adjust.byReference f i x h = (.ub, h') := by
          rw [Adjust.byReference, bind_def, e]; simp only [bind_def, e1, e2]
        rw [this]; exact ⟨k2, hw⟩
    · have : Adjust.byReference f i x h = (.ub, h') := by
        rw [Adjust.byReference, bind_def, e]; simp only [bind_def, e1]
      rw [this]; exact ⟨k2, hw⟩

theorem write_spec {raws : Prop} (hr : raws → ∀ t, ¬ P t) {i : Nat} {p : Prog Unit} (hp : Write raws i p) (h : Heap) (hg : Good (Ranged P) h) :
    Good (Ranged P) (p h).2 ∧ Wrote i h (p h).2 := by
  have hQ : Closed (Ranged P) := ranged_closed
  have w : ∀ {F : Nat → Prop} {i : Nat}, F i → Within F (some i) := fun hf j hj => Option.some.inj hj ▸ hf
  cases hp
  case setChannel k v => exact rewrite_spec hQ (fun t c d _ hq hd => hQ.chan t c _ _ d hq hd) h hg
  case setComponent k v => exact rewrite_spec hQ (fun t c d _ hq hd => hQ.comp t c _ _ d hq hd) h hg
  case setAlpha a => exact rewrite_spec hQ (fun t c d _ hq hd => ok_inj.mp hd ▸ hQ.alpha t c _ hq) h hg
  case setSpace sp => exact rewrite_spec hQ (g := fun c => ok (c.setSpace sp)) (fun t c d _ hq hd => by obtain rfl := ok_inj.mp hd; exact hq.congr rfl rfl rfl rfl rfl) h hg
  case gamma g => exact rewrite_spec hQ (fun t c d _ hq hd => ok_inj.mp hd ▸ hQ.gamma t c _ hq) h hg
  case alphaMultiply hraw => exact rewrite_spec hQ (fun t c d _ hq hd => ok_inj.mp hd ▸ ranged_multiply (hr hraw t) hq) h hg
  case alphaDivide hraw => exact rewrite_spec hQ (fun t c d _ hq hd => ok_inj.mp hd ▸ ranged_divide (hr hraw t) hq) h hg
  case assign q =>
    rcases load_cases q h with ⟨n, o, rfl, ho, e⟩ | e
    · rw [bind_def, e]
      obtain ⟨t', -, hq'⟩ := hg n o ho
      refine rewrite_spec hQ (fun t c d _ hq hd => ?_) h hg
      split at hd
      · next hcls =>
        have : t' = t := by rw [← hq'.1.cls, ← hcls, hq.1.cls]
        subst this
        exact ok_inj.mp hd ▸ hq'.congr hcls rfl rfl rfl rfl
      · simp at hd
    · rw [bind_def, e]; exact ⟨hg, wrote_refl i h⟩
  case saturateRgb x => exact byReference_spec hQ (fun F hf => s_saturate_rgb hQ (w hf) x) h hg
  case saturateHsl x => exact byReference_spec hQ (fun F hf => s_saturate_hsl hQ (w hf) x) h hg
  case luminateRgb x => exact byReference_spec hQ (fun F hf => s_luminate_rgb hQ (w hf) x) h hg
  case luminateHsl x => exact byReference_spec hQ (fun F hf => s_luminate_hsl hQ (w hf) x) h hg

/-! ### Chromatic adaptation -/

/-- The shared data differ at most in the colour space definition at address `a`. -/
structure OnlyAt (a : Nat) (w w' : World) : Prop where
  parts : w'.parts = w.parts
  gammas : w'.gammas = w.gammas
  whites : w'.whites = w.whites
  spaces : ∀ b, b ≠ a → w'.spaces b = w.spaces b

/-- Like `Spec`, for programs that write the colour space definition at `a`. -/
def SpecA (Q : ColorType → Color → Prop) (F : Nat → Prop) (a : Nat) {α : Type} (p : Prog α) (R : Heap → α → Prop) : Prop :=
  ∀ h, Good Q h → Fresh F h → (∃ w, OnlyAt a h.world w ∧ After F ⟨w, h.colors⟩ (p h).2) ∧ Good Q (p h).2 ∧ ∀ x, (p h).1 = ok x → R (p h).2 x

theorem only_refl (a : Nat) (w : World) : OnlyAt a w w := ⟨rfl, rfl, rfl, fun _ _ => rfl⟩

theorem only_trans {a : Nat} {u v w : World} (h1 : OnlyAt a u v) (h2 : OnlyAt a v w) : OnlyAt a u w :=
  ⟨h2.parts.trans h1.parts, h2.gammas.trans h1.gammas, h2.whites.trans h1.whites, fun b hb => (h2.spaces b hb).trans (h1.spaces b hb)⟩

section
variable {Q : ColorType → Color → Prop} {a : Nat} {α β : Type} {R : Heap → α → Prop} {S : Heap → β → Prop}

theorem specA_of {p : Prog α} (hp : Spec Q F p R) : SpecA Q F a p R := fun h hg hf => ⟨⟨h.world, only_refl a _, (hp h hg hf).1⟩, (hp h hg hf).2⟩

theorem specA_bind {p : Prog α} {f : α → Prog β} (hp : SpecA Q F a p R) (hf : ∀ x h, R h x → SpecA Q F a (f x) S) : SpecA Q F a (p >>= f) S := by
  intro h hg hfr
  obtain ⟨⟨w, hw, h1⟩, h2, h3⟩ := hp h hg hfr
  rw [bind_def]
  rcases e : p h with ⟨o, h'⟩
  rw [e] at h1 h2 h3
  cases o with
  | ok x =>
    have hfr' : Fresh F h' := h1.fresh (fun i hi => hfr i hi)
    obtain ⟨⟨w', hw', k1⟩, k2, k3⟩ := hf x h' (h3 x rfl) h' h2 hfr'
    have hww : h'.world = w := h1.world
    refine ⟨⟨w', only_trans hw (hww ▸ hw'), ?_⟩, k2, k3⟩
    refine ⟨k1.world, fun i c hi hc => k1.same i c hi (h1.same i c hi hc), fun i c hc => ?_⟩
    obtain ⟨y, hy, j1⟩ := h1.there i c hc
    obtain ⟨z, hz, j2⟩ := k1.there i y hy
    exact ⟨z, hz, j1.trans j2⟩
  | throw e => exact ⟨⟨w, hw, h1⟩, h2, by simp⟩
  | ub => exact ⟨⟨w, hw, h1⟩, h2, by simp⟩

theorem specA_lift {o : Outcome α} {f : α → Prog β} (hf : ∀ x, o = ok x → SpecA Q F a (f x) S) : SpecA Q F a (lift o >>= f) S :=
  specA_bind (R := fun _ x => o = ok x) (specA_of (spec_lift o fun x hx _ => hx)) fun x _ hx => hf x hx

theorem specA_world {f : World → Prog β} (hf : ∀ w, SpecA Q F a (f w) S) : SpecA Q F a (world >>= f) S := fun h hg hfr => hf h.world h hg hfr

theorem specA_load {p : Ptr} {f : Color → Prog β} (hf : ∀ c t, t ≠ .undefined → Q t c → SpecA Q F a (f c) S) : SpecA Q F a (load p >>= f) S := by
  intro h hg hfr
  rw [bind_def]
  rcases load_cases p h with ⟨i, c, -, hc, e⟩ | e
  · rw [e]
    obtain ⟨t, ht, hq⟩ := hg i c hc
    exact hf c t ht hq h hg hfr
  · rw [e]; exact ⟨⟨h.world, only_refl a _, after_refl h⟩, hg, by simp⟩

theorem specA_like {p : Ptr} {f : Color → Prog Ptr} (hf : ∀ c t, t ≠ .undefined → Q t c → SpecA Q F a (f c) (IsA Q F c.ctype)) : SpecA Q F a (load p >>= f) (Like Q F p) := by
  intro h hg hfr
  rw [bind_def]
  rcases load_cases p h with ⟨i, c, rfl, hc, e⟩ | e
  · rw [e]
    obtain ⟨t, ht, hq⟩ := hg i c hc
    obtain ⟨⟨w, hw, k1⟩, k2, k3⟩ := hf c t ht hq h hg hfr
    refine ⟨⟨w, hw, k1⟩, k2, fun x hx => ⟨fun n hn => (k3 x hx n hn).1, Or.inr ?_⟩⟩
    obtain ⟨c', hc', kk⟩ := k1.there i c hc
    have : c'.ctype = c.ctype := by rw [kk]
    exact ⟨i, c', rfl, hc', by rw [this]; exact k3 x hx⟩
  · rw [e]; exact ⟨⟨h.world, only_refl a _, after_refl h⟩, hg, by simp⟩

end

theorem specA_newDefinition {Q : ColorType → Color → Prop} (a : Nat) (old target : Option Nat) : SpecA Q F a (Adapt.newDefinition a old target) (fun _ _ => True) := by
  intro h hg hfr
  have stay : ∃ w, OnlyAt a h.world w ∧ After F ⟨w, h.colors⟩ h := ⟨h.world, only_refl a _, after_refl h⟩
  unfold Adapt.newDefinition
  cases h.world.space old with
  | ub => exact ⟨stay, hg, fun _ _ => trivial⟩
  | throw e => exact ⟨stay, hg, fun _ _ => trivial⟩
  | ok s =>
    dsimp only
    cases s.copy with
    | ub => exact ⟨stay, hg, fun _ _ => trivial⟩
    | throw e => exact ⟨stay, hg, fun _ _ => trivial⟩
    | ok d =>
      refine ⟨⟨{ h.world with spaces := Function.update h.world.spaces a (d.setWhitePoint h.world.whites target).1 }, ⟨rfl, rfl, rfl, fun b hb => ?_⟩, after_refl _⟩, hg, fun _ _ => trivial⟩
      simp [Function.update_of_ne hb]

theorem adapt_spec {Q : ColorType → Color → Prop} (hQ : Closed Q) (f : Adapt.Core) (a : Nat) {p : Ptr} (hp : Within F p) (target : Option Nat) : SpecA Q F a (Adapt.adapt f a p target) (Like Q F p) := by
  refine specA_load fun _ _ _ _ => specA_world fun _ => specA_lift fun _ _ => ?_
  split
  · exact specA_of (spec_self hp)
  refine specA_bind (specA_of (s_to_xyz hQ hp)) fun _ _ _ => specA_load fun _ _ _ _ => specA_like fun c _ _ _ => specA_world fun _ => specA_lift fun _ _ => specA_lift fun _ _ =>
    specA_lift fun _ _ => specA_lift fun _ _ => specA_bind (specA_newDefinition _ _ _) fun _ _ _ => specA_lift fun _ _ => specA_lift fun _ _ => specA_lift fun _ _ => specA_lift fun r hr => ?_
  exact specA_of (Spec.bindp (spec_alloc (t := .xyz) (by decide) (hQ.make _ _ _ _ r (by decide) rfl hr)) fun _ hn => s_convertTo hQ hn _)

/-! ### Sessions -/

theorem session_good {blends raws : Prop} (hb : blends → ¬ P .rgbDeep) (hr : raws → ∀ t, ¬ P t) {h : Heap} (hs : Session blends raws h) : Good (Ranged P) h := by
  induction hs with
  | start w => intro i c hc; simp at hc
  | call h args α p res pr _ hc _ ih => exact (call_spec (F := fun _ => True) hb hc (fun _ _ _ _ => trivial) h ih (fun _ _ => trivial)).2.1
  | write h i p _ hw _ ih => exact (write_spec hr hw h ih).1
  | adapt h f a p target _ _ ih => exact (adapt_spec (F := fun _ => True) ranged_closed f a (fun _ _ => trivial) target h ih (fun _ _ => trivial)).2.1
  | world h w _ ih => exact ih

omit [FloatModel] in
theorem wellFormed_iff {c : Color} : WellFormed c ↔ ∃ t, t ≠ .undefined ∧ IsColor t c := by
  constructor
  · rintro ⟨h1, h2, h3, h4, h5⟩
    refine ⟨c.ctype, h1, h2, rfl, ?_, ?_, ?_⟩
    · rw [h3]; cases c.ctype <;> rfl
    · rw [h5]; cases c.ctype <;> simp [shape, Color.maxOf] <;> norm_num
    · rw [h4]; cases c.ctype <;> simp [shape, Color.minOf] <;> norm_num
  · rintro ⟨t, ht, h1, h2, h3, h4, h5⟩
    subst h2
    refine ⟨ht, h1, ?_, ?_, ?_⟩
    · rw [h3]; cases c.ctype <;> rfl
    · rw [h5]; cases c.ctype <;> simp [shape, Color.minOf] <;> norm_num
    · rw [h4]; cases c.ctype <;> simp [shape, Color.maxOf] <;> norm_num

end
end Tame
