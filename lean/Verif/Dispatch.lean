import Verif.ConvVal

/-! Proof machinery: the dispatchers of `Converter` call the right function for every pair of types.  Generated. -/

open Outcome Fl Prog ObjectSpec

namespace Conv
variable [FloatModel]

/-- The public function `color_converter::to_<t>`. -/
noncomputable def dispatcher : ColorType → Ptr → Prog Ptr
  | .rgbTrue => Converter.to_rgb_true
  | .rgbDeep => Converter.to_rgb_deep
  | .greyTrue => Converter.to_grey_true
  | .greyDeep => Converter.to_grey_deep
  | .cmyk => Converter.to_cmyk
  | .hsi => Converter.to_hsi
  | .hsv => Converter.to_hsv
  | .hsl => Converter.to_hsl
  | .hcy => Converter.to_hcy
  | .xyz => Converter.to_xyz
  | .xyy => Converter.to_xyy
  | .cieluv => Converter.to_cieluv
  | .lab => Converter.to_lab
  | .lchAb => Converter.to_lch_ab
  | .lchUv => Converter.to_lch_uv
  | .undefined => fun _ => pure none


noncomputable def direct_rgb_true : ColorType → Ptr → Prog Ptr
  | .rgbTrue => fun p => pure p
  | .rgbDeep => Converter.rgb_true_to_rgb_deep
  | .greyTrue => Converter.rgb_true_to_grey_true
  | .greyDeep => Converter.rgb_true_to_grey_deep
  | .cmyk => Converter.rgb_true_to_cmyk
  | .hsi => Converter.rgb_true_to_hsi
  | .hsv => Converter.rgb_true_to_hsv
  | .hsl => Converter.rgb_true_to_hsl
  | .hcy => Converter.rgb_true_to_hcy
  | .xyz => Converter.rgb_true_to_xyz
  | .xyy => Converter.rgb_true_to_xyy
  | .cieluv => Converter.rgb_true_to_cieluv
  | .lab => Converter.rgb_true_to_lab
  | .lchAb => Converter.rgb_true_to_lch_ab
  | .lchUv => Converter.rgb_true_to_lch_uv
  | .undefined => fun _ => pure none

noncomputable def direct_rgb_deep : ColorType → Ptr → Prog Ptr
  | .rgbTrue => Converter.rgb_deep_to_rgb_true
  | .rgbDeep => fun p => pure p
  | .greyTrue => Converter.rgb_deep_to_grey_true
  | .greyDeep => Converter.rgb_deep_to_grey_deep
  | .cmyk => Converter.rgb_deep_to_cmyk
  | .hsi => Converter.rgb_deep_to_hsi
  | .hsv => Converter.rgb_deep_to_hsv
  | .hsl => Converter.rgb_deep_to_hsl
  | .hcy => Converter.rgb_deep_to_hcy
  | .xyz => Converter.rgb_deep_to_xyz
  | .xyy => Converter.rgb_deep_to_xyy
  | .cieluv => Converter.rgb_deep_to_cieluv
  | .lab => Converter.rgb_deep_to_lab
  | .lchAb => Converter.rgb_deep_to_lch_ab
  | .lchUv => Converter.rgb_deep_to_lch_uv
  | .undefined => fun _ => pure none

noncomputable def direct_grey_true : ColorType → Ptr → Prog Ptr
  | .rgbTrue => Converter.grey_true_to_rgb_true
  | .rgbDeep => Converter.grey_true_to_rgb_deep
  | .greyTrue => fun p => pure p
  | .greyDeep => Converter.grey_true_to_grey_deep
  | .cmyk => Converter.grey_true_to_cmyk
  | .hsi => Converter.grey_true_to_hsi
  | .hsv => Converter.grey_true_to_hsv
  | .hsl => Converter.grey_true_to_hsl
  | .hcy => Converter.grey_true_to_hcy
  | .xyz => Converter.grey_true_to_xyz
  | .xyy => Converter.grey_true_to_xyy
  | .cieluv => Converter.grey_true_to_cieluv
  | .lab => Converter.grey_true_to_lab
  | .lchAb => Converter.grey_true_to_lch_ab
  | .lchUv => Converter.grey_true_to_lch_uv
  | .undefined => fun _ => pure none

noncomputable def direct_grey_deep : ColorType → Ptr → Prog Ptr
  | .rgbTrue => Converter.grey_deep_to_rgb_true
  | .rgbDeep => Converter.grey_deep_to_rgb_deep
  | .greyTrue => Converter.grey_deep_to_grey_true
  | .greyDeep => fun p => pure p
  | .cmyk => Converter.grey_deep_to_cmyk
  | .hsi => Converter.grey_deep_to_hsi
  | .hsv => Converter.grey_deep_to_hsv
  | .hsl => Converter.grey_deep_to_hsl
  | .hcy => Converter.grey_deep_to_hcy
  | .xyz => Converter.grey_deep_to_xyz
  | .xyy => Converter.grey_deep_to_xyy
  | .cieluv => Converter.grey_deep_to_cieluv
  | .lab => Converter.grey_deep_to_lab
  | .lchAb => Converter.grey_deep_to_lch_ab
  | .lchUv => Converter.grey_deep_to_lch_uv
  | .undefined => fun _ => pure none

noncomputable def direct_cmyk : ColorType → Ptr → Prog Ptr
  | .rgbTrue => Converter.cmyk_to_rgb_true
  | .rgbDeep => Converter.cmyk_to_rgb_deep
  | .greyTrue => Converter.cmyk_to_grey_true
  | .greyDeep => Converter.cmyk_to_grey_deep
  | .cmyk => fun p => pure p
  | .hsi => Converter.cmyk_to_hsi
  | .hsv => Converter.cmyk_to_hsv
  | .hsl => Converter.cmyk_to_hsl
  | .hcy => Converter.cmyk_to_hcy
  | .xyz => Converter.cmyk_to_xyz
  | .xyy => Converter.cmyk_to_xyy
  | .cieluv => Converter.cmyk_to_cieluv
  | .lab => Converter.cmyk_to_lab
  | .lchAb => Converter.cmyk_to_lch_ab
  | .lchUv => Converter.cmyk_to_lch_uv
  | .undefined => fun _ => pure none

noncomputable def direct_hsi : ColorType → Ptr → Prog Ptr
  | .rgbTrue => Converter.hsi_to_rgb_true
  | .rgbDeep => Converter.hsi_to_rgb_deep
  | .greyTrue => Converter.hsi_to_grey_true
  | .greyDeep => Converter.hsi_to_grey_deep
  | .cmyk => Converter.hsi_to_cmyk
  | .hsi => fun p => pure p
  | .hsv => Converter.hsi_to_hsv
  | .hsl => Converter.hsi_to_hsl
  | .hcy => Converter.hsi_to_hcy
  | .xyz => Converter.hsi_to_xyz
  | .xyy => Converter.hsi_to_xyy
  | .cieluv => Converter.hsi_to_cieluv
  | .lab => Converter.hsi_to_lab
  | .lchAb => Converter.hsi_to_lch_ab
  | .lchUv => Converter.hsi_to_lch_uv
  | .undefined => fun _ => pure none

noncomputable def direct_hsv : ColorType → Ptr → Prog Ptr
  | .rgbTrue => Converter.hsv_to_rgb_true
  | .rgbDeep => Converter.hsv_to_rgb_deep
  | .greyTrue => Converter.hsv_to_grey_true
  | .greyDeep => Converter.hsv_to_grey_deep
  | .cmyk => Converter.hsv_to_cmyk
  | .hsi => Converter.hsv_to_hsi
  | .hsv => fun p => pure p
  | .hsl => Converter.hsv_to_hsl
  | .hcy => Converter.hsv_to_hcy
  | .xyz => Converter.hsv_to_xyz
  | .xyy => Converter.hsv_to_xyy
  | .cieluv => Converter.hsv_to_cieluv
  | .lab => Converter.hsv_to_lab
  | .lchAb => Converter.hsv_to_lch_ab
  | .lchUv => Converter.hsv_to_lch_uv
  | .undefined => fun _ => pure none

noncomputable def direct_hsl : ColorType → Ptr → Prog Ptr
  | .rgbTrue => Converter.hsl_to_rgb_true
  | .rgbDeep => Converter.hsl_to_rgb_deep
  | .greyTrue => Converter.hsl_to_grey_true
  | .greyDeep => Converter.hsl_to_grey_deep
  | .cmyk => Converter.hsl_to_cmyk
  | .hsi => Converter.hsl_to_hsi
  | .hsv => Converter.hsl_to_hsv
  | .hsl => fun p => pure p
  | .hcy => Converter.hsl_to_hcy
  | .xyz => Converter.hsl_to_xyz
  | .xyy => Converter.hsl_to_xyy
  | .cieluv => Converter.hsl_to_cieluv
  | .lab => Converter.hsl_to_lab
  | .lchAb => Converter.hsl_to_lch_ab
  | .lchUv => Converter.hsl_to_lch_uv
  | .undefined => fun _ => pure none

noncomputable def direct_hcy : ColorType → Ptr → Prog Ptr
  | .rgbTrue => Converter.hcy_to_rgb_true
  | .rgbDeep => Converter.hcy_to_rgb_deep
  | .greyTrue => Converter.hcy_to_grey_true
  | .greyDeep => Converter.hcy_to_grey_deep
  | .cmyk => Converter.hcy_to_cmyk
  | .hsi => Converter.hcy_to_hsi
  | .hsv => Converter.hcy_to_hsv
  | .hsl => Converter.hcy_to_hsl
  | .hcy => fun p => pure p
  | .xyz => Converter.hcy_to_xyz
  | .xyy => Converter.hcy_to_xyy
  | .cieluv => Converter.hcy_to_cieluv
  | .lab => Converter.hcy_to_lab
  | .lchAb => Converter.hcy_to_lch_ab
  | .lchUv => Converter.hcy_to_lch_uv
  | .undefined => fun _ => pure none

noncomputable def direct_xyz : ColorType → Ptr → Prog Ptr
  | .rgbTrue => Converter.xyz_to_rgb_true
  | .rgbDeep => Converter.xyz_to_rgb_deep
  | .greyTrue => Converter.xyz_to_grey_true
  | .greyDeep => Converter.xyz_to_grey_deep
  | .cmyk => Converter.xyz_to_cmyk
  | .hsi => Converter.xyz_to_hsi
  | .hsv => Converter.xyz_to_hsv
  | .hsl => Converter.xyz_to_hsl
  | .hcy => Converter.xyz_to_hcy
  | .xyz => fun p => pure p
  | .xyy => Converter.xyz_to_xyy
  | .cieluv => Converter.xyz_to_cieluv
  | .lab => Converter.xyz_to_lab
  | .lchAb => Converter.xyz_to_lch_ab
  | .lchUv => Converter.xyz_to_lch_uv
  | .undefined => fun _ => pure none

noncomputable def direct_xyy : ColorType → Ptr → Prog Ptr
  | .rgbTrue => Converter.xyy_to_rgb_true
  | .rgbDeep => Converter.xyy_to_rgb_deep
  | .greyTrue => Converter.xyy_to_grey_true
  | .greyDeep => Converter.xyy_to_grey_deep
  | .cmyk => Converter.xyy_to_cmyk
  | .hsi => Converter.xyy_to_hsi
  | .hsv => Converter.xyy_to_hsv
  | .hsl => Converter.xyy_to_hsl
  | .hcy => Converter.xyy_to_hcy
  | .xyz => Converter.xyy_to_xyz
  | .xyy => fun p => pure p
  | .cieluv => Converter.xyy_to_cieluv
  | .lab => Converter.xyy_to_lab
  | .lchAb => Converter.xyy_to_lch_ab
  | .lchUv => Converter.xyy_to_lch_uv
  | .undefined => fun _ => pure none

noncomputable def direct_cieluv : ColorType → Ptr → Prog Ptr
  | .rgbTrue => Converter.cieluv_to_rgb_true
  | .rgbDeep => Converter.cieluv_to_rgb_deep
  | .greyTrue => Converter.cieluv_to_grey_true
  | .greyDeep => Converter.cieluv_to_grey_deep
  | .cmyk => Converter.cieluv_to_cmyk
  | .hsi => Converter.cieluv_to_hsi
  | .hsv => Converter.cieluv_to_hsv
  | .hsl => Converter.cieluv_to_hsl
  | .hcy => Converter.cieluv_to_hcy
  | .xyz => Converter.cieluv_to_xyz
  | .xyy => Converter.cieluv_to_xyy
  | .cieluv => fun p => pure p
  | .lab => Converter.cieluv_to_lab
  | .lchAb => Converter.cieluv_to_lch_ab
  | .lchUv => Converter.cieluv_to_lch_uv
  | .undefined => fun _ => pure none

noncomputable def direct_lab : ColorType → Ptr → Prog Ptr
  | .rgbTrue => Converter.lab_to_rgb_true
  | .rgbDeep => Converter.lab_to_rgb_deep
  | .greyTrue => Converter.lab_to_grey_true
  | .greyDeep => Converter.lab_to_grey_deep
  | .cmyk => Converter.lab_to_cmyk
  | .hsi => Converter.lab_to_hsi
  | .hsv => Converter.lab_to_hsv
  | .hsl => Converter.lab_to_hsl
  | .hcy => Converter.lab_to_hcy
  | .xyz => Converter.lab_to_xyz
  | .xyy => Converter.lab_to_xyy
  | .cieluv => Converter.lab_to_cieluv
  | .lab => fun p => pure p
  | .lchAb => Converter.lab_to_lch_ab
  | .lchUv => Converter.lab_to_lch_uv
  | .undefined => fun _ => pure none

noncomputable def direct_lch_ab : ColorType → Ptr → Prog Ptr
  | .rgbTrue => Converter.lch_ab_to_rgb_true
  | .rgbDeep => Converter.lch_ab_to_rgb_deep
  | .greyTrue => Converter.lch_ab_to_grey_true
  | .greyDeep => Converter.lch_ab_to_grey_deep
  | .cmyk => Converter.lch_ab_to_cmyk
  | .hsi => Converter.lch_ab_to_hsi
  | .hsv => Converter.lch_ab_to_hsv
  | .hsl => Converter.lch_ab_to_hsl
  | .hcy => Converter.lch_ab_to_hcy
  | .xyz => Converter.lch_ab_to_xyz
  | .xyy => Converter.lch_ab_to_xyy
  | .cieluv => Converter.lch_ab_to_cieluv
  | .lab => Converter.lch_ab_to_lab
  | .lchAb => fun p => pure p
  | .lchUv => Converter.lch_ab_to_lch_uv
  | .undefined => fun _ => pure none

noncomputable def direct_lch_uv : ColorType → Ptr → Prog Ptr
  | .rgbTrue => Converter.lch_uv_to_rgb_true
  | .rgbDeep => Converter.lch_uv_to_rgb_deep
  | .greyTrue => Converter.lch_uv_to_grey_true
  | .greyDeep => Converter.lch_uv_to_grey_deep
  | .cmyk => Converter.lch_uv_to_cmyk
  | .hsi => Converter.lch_uv_to_hsi
  | .hsv => Converter.lch_uv_to_hsv
  | .hsl => Converter.lch_uv_to_hsl
  | .hcy => Converter.lch_uv_to_hcy
  | .xyz => Converter.lch_uv_to_xyz
  | .xyy => Converter.lch_uv_to_xyy
  | .cieluv => Converter.lch_uv_to_cieluv
  | .lab => Converter.lch_uv_to_lab
  | .lchAb => Converter.lch_uv_to_lch_ab
  | .lchUv => fun p => pure p
  | .undefined => fun _ => pure none

/-- The function the dispatcher should call. -/
noncomputable def direct : ColorType → ColorType → Ptr → Prog Ptr
  | .rgbTrue => direct_rgb_true
  | .rgbDeep => direct_rgb_deep
  | .greyTrue => direct_grey_true
  | .greyDeep => direct_grey_deep
  | .cmyk => direct_cmyk
  | .hsi => direct_hsi
  | .hsv => direct_hsv
  | .hsl => direct_hsl
  | .hcy => direct_hcy
  | .xyz => direct_xyz
  | .xyy => direct_xyy
  | .cieluv => direct_cieluv
  | .lab => direct_lab
  | .lchAb => direct_lch_ab
  | .lchUv => direct_lch_uv
  | .undefined => fun _ _ => pure none

/-- What happens to the argument. -/
noncomputable def effect (s t : ColorType) : World → Color → Color :=
  match s, viaXyz t with
  | .rgbDeep, true => Val.linearised
  | _, _ => keep

omit [FloatModel] in
theorem cast_eq (s : ColorType) (h : Heap) (i : Nat) (c : Color) (hc : h.colors[i]? = some c) (hcl : c.cls = s) :
    Converter.cast s (some i) h = (ok (some i), h) := by
  simp only [Converter.cast, Prog.bind_def, load, hc, hcl, if_true, pure_run]

omit [FloatModel] in
theorem cast_then (s : ColorType) (f : Ptr → Prog Ptr) (h : Heap) (i : Nat) (c : Color) (hc : h.colors[i]? = some c) (hcl : c.cls = s) :
    (Converter.cast s (some i) >>= f) h = f (some i) h := by
  simp only [Prog.bind_def, cast_eq s h i c hc hcl]

theorem dispatch_rgb_true (s : ColorType) (hs : s ≠ .undefined) (h : Heap) (i : Nat) (c : Color) (hc : h.colors[i]? = some c)
    (hcl : c.cls = s) (hct : c.ctype = s) : Converter.to_rgb_true (some i) h = direct s .rgbTrue (some i) h := by
  unfold Converter.to_rgb_true
  rw [Prog.bind_def]
  simp only [load, hc]
  rw [hct]
  cases s
  case undefined => exact absurd rfl hs
  case rgbTrue => exact cast_eq _ h i c hc hcl
  case rgbDeep => exact cast_then .rgbDeep Converter.rgb_deep_to_rgb_true h i c hc hcl
  case greyTrue => exact cast_then .greyTrue Converter.grey_true_to_rgb_true h i c hc hcl
  case greyDeep => exact cast_then .greyDeep Converter.grey_deep_to_rgb_true h i c hc hcl
  case cmyk => exact cast_then .cmyk Converter.cmyk_to_rgb_true h i c hc hcl
  case hsi => exact cast_then .hsi Converter.hsi_to_rgb_true h i c hc hcl
  case hsv => exact cast_then .hsv Converter.hsv_to_rgb_true h i c hc hcl
  case hsl => exact cast_then .hsl Converter.hsl_to_rgb_true h i c hc hcl
  case hcy => exact cast_then .hcy Converter.hcy_to_rgb_true h i c hc hcl
  case xyz => exact cast_then .xyz Converter.xyz_to_rgb_true h i c hc hcl
  case xyy => exact cast_then .xyy Converter.xyy_to_rgb_true h i c hc hcl
  case cieluv => exact cast_then .cieluv Converter.cieluv_to_rgb_true h i c hc hcl
  case lab => exact cast_then .lab Converter.lab_to_rgb_true h i c hc hcl
  case lchAb => exact cast_then .lchAb Converter.lch_ab_to_rgb_true h i c hc hcl
  case lchUv => exact cast_then .lchUv Converter.lch_uv_to_rgb_true h i c hc hcl
theorem dispatch_rgb_deep (s : ColorType) (hs : s ≠ .undefined) (h : Heap) (i : Nat) (c : Color) (hc : h.colors[i]? = some c)
    (hcl : c.cls = s) (hct : c.ctype = s) : Converter.to_rgb_deep (some i) h = direct s .rgbDeep (some i) h := by
  unfold Converter.to_rgb_deep
  rw [Prog.bind_def]
  simp only [load, hc]
  rw [hct]
  cases s
  case undefined => exact absurd rfl hs
  case rgbTrue => exact cast_then .rgbTrue Converter.rgb_true_to_rgb_deep h i c hc hcl
  case rgbDeep => exact cast_eq _ h i c hc hcl
  case greyTrue => exact cast_then .greyTrue Converter.grey_true_to_rgb_deep h i c hc hcl
  case greyDeep => exact cast_then .greyDeep Converter.grey_deep_to_rgb_deep h i c hc hcl
  case cmyk => exact cast_then .cmyk Converter.cmyk_to_rgb_deep h i c hc hcl
  case hsi => exact cast_then .hsi Converter.hsi_to_rgb_deep h i c hc hcl
  case hsv => exact cast_then .hsv Converter.hsv_to_rgb_deep h i c hc hcl
  case hsl => exact cast_then .hsl Converter.hsl_to_rgb_deep h i c hc hcl
  case hcy => exact cast_then .hcy Converter.hcy_to_rgb_deep h i c hc hcl
  case xyz => exact cast_then .xyz Converter.xyz_to_rgb_deep h i c hc hcl
  case xyy => exact cast_then .xyy Converter.xyy_to_rgb_deep h i c hc hcl
  case cieluv => exact cast_then .cieluv Converter.cieluv_to_rgb_deep h i c hc hcl
  case lab => exact cast_then .lab Converter.lab_to_rgb_deep h i c hc hcl
  case lchAb => exact cast_then .lchAb Converter.lch_ab_to_rgb_deep h i c hc hcl
  case lchUv => exact cast_then .lchUv Converter.lch_uv_to_rgb_deep h i c hc hcl
theorem dispatch_grey_true (s : ColorType) (hs : s ≠ .undefined) (h : Heap) (i : Nat) (c : Color) (hc : h.colors[i]? = some c)
    (hcl : c.cls = s) (hct : c.ctype = s) : Converter.to_grey_true (some i) h = direct s .greyTrue (some i) h := by
  unfold Converter.to_grey_true
  rw [Prog.bind_def]
  simp only [load, hc]
  rw [hct]
  cases s
  case undefined => exact absurd rfl hs
  case rgbTrue => exact cast_then .rgbTrue Converter.rgb_true_to_grey_true h i c hc hcl
  case rgbDeep => exact cast_then .rgbDeep Converter.rgb_deep_to_grey_true h i c hc hcl
  case greyTrue => exact cast_eq _ h i c hc hcl
  case greyDeep => exact cast_then .greyDeep Converter.grey_deep_to_grey_true h i c hc hcl
  case cmyk => exact cast_then .cmyk Converter.cmyk_to_grey_true h i c hc hcl
  case hsi => exact cast_then .hsi Converter.hsi_to_grey_true h i c hc hcl
  case hsv => exact cast_then .hsv Converter.hsv_to_grey_true h i c hc hcl
  case hsl => exact cast_then .hsl Converter.hsl_to_grey_true h i c hc hcl
  case hcy => exact cast_then .hcy Converter.hcy_to_grey_true h i c hc hcl
  case xyz => exact cast_then .xyz Converter.xyz_to_grey_true h i c hc hcl
  case xyy => exact cast_then .xyy Converter.xyy_to_grey_true h i c hc hcl
  case cieluv => exact cast_then .cieluv Converter.cieluv_to_grey_true h i c hc hcl
  case lab => exact cast_then .lab Converter.lab_to_grey_true h i c hc hcl
  case lchAb => exact cast_then .lchAb Converter.lch_ab_to_grey_true h i c hc hcl
  case lchUv => exact cast_then .lchUv Converter.lch_uv_to_grey_true h i c hc hcl
theorem dispatch_grey_deep (s : ColorType) (hs : s ≠ .undefined) (h : Heap) (i : Nat) (c : Color) (hc : h.colors[i]? = some c)
    (hcl : c.cls = s) (hct : c.ctype = s) : Converter.to_grey_deep (some i) h = direct s .greyDeep (some i) h := by
  unfold Converter.to_grey_deep
  rw [Prog.bind_def]
  simp only [load, hc]
  rw [hct]
  cases s
  case undefined => exact absurd rfl hs
  case rgbTrue => exact cast_then .rgbTrue Converter.rgb_true_to_grey_deep h i c hc hcl
  case rgbDeep => exact cast_then .rgbDeep Converter.rgb_deep_to_grey_deep h i c hc hcl
  case greyTrue => exact cast_then .greyTrue Converter.grey_true_to_grey_deep h i c hc hcl
  case greyDeep => exact cast_eq _ h i c hc hcl
  case cmyk => exact cast_then .cmyk Converter.cmyk_to_grey_deep h i c hc hcl
  case hsi => exact cast_then .hsi Converter.hsi_to_grey_deep h i c hc hcl
  case hsv => exact cast_then .hsv Converter.hsv_to_grey_deep h i c hc hcl
  case hsl => exact cast_then .hsl Converter.hsl_to_grey_deep h i c hc hcl
  case hcy => exact cast_then .hcy Converter.hcy_to_grey_deep h i c hc hcl
  case xyz => exact cast_then .xyz Converter.xyz_to_grey_deep h i c hc hcl
  case xyy => exact cast_then .xyy Converter.xyy_to_grey_deep h i c hc hcl
  case cieluv => exact cast_then .cieluv Converter.cieluv_to_grey_deep h i c hc hcl
  case lab => exact cast_then .lab Converter.lab_to_grey_deep h i c hc hcl
  case lchAb => exact cast_then .lchAb Converter.lch_ab_to_grey_deep h i c hc hcl
  case lchUv => exact cast_then .lchUv Converter.lch_uv_to_grey_deep h i c hc hcl
theorem dispatch_cmyk (s : ColorType) (hs : s ≠ .undefined) (h : Heap) (i : Nat) (c : Color) (hc : h.colors[i]? = some c)
    (hcl : c.cls = s) (hct : c.ctype = s) : Converter.to_cmyk (some i) h = direct s .cmyk (some i) h := by
  unfold Converter.to_cmyk
  rw [Prog.bind_def]
  simp only [load, hc]
  rw [hct]
  cases s
  case undefined => exact absurd rfl hs
  case rgbTrue => exact cast_then .rgbTrue Converter.rgb_true_to_cmyk h i c hc hcl
  case rgbDeep => exact cast_then .rgbDeep Converter.rgb_deep_to_cmyk h i c hc hcl
  case greyTrue => exact cast_then .greyTrue Converter.grey_true_to_cmyk h i c hc hcl
  case greyDeep => exact cast_then .greyDeep Converter.grey_deep_to_cmyk h i c hc hcl
  case cmyk => exact cast_eq _ h i c hc hcl
  case hsi => exact cast_then .hsi Converter.hsi_to_cmyk h i c hc hcl
  case hsv => exact cast_then .hsv Converter.hsv_to_cmyk h i c hc hcl
  case hsl => exact cast_then .hsl Converter.hsl_to_cmyk h i c hc hcl
  case hcy => exact cast_then .hcy Converter.hcy_to_cmyk h i c hc hcl
  case xyz => exact cast_then .xyz Converter.xyz_to_cmyk h i c hc hcl
  case xyy => exact cast_then .xyy Converter.xyy_to_cmyk h i c hc hcl
  case cieluv => exact cast_then .cieluv Converter.cieluv_to_cmyk h i c hc hcl
  case lab => exact cast_then .lab Converter.lab_to_cmyk h i c hc hcl
  case lchAb => exact cast_then .lchAb Converter.lch_ab_to_cmyk h i c hc hcl
  case lchUv => exact cast_then .lchUv Converter.lch_uv_to_cmyk h i c hc hcl
theorem dispatch_hsi (s : ColorType) (hs : s ≠ .undefined) (h : Heap) (i : Nat) (c : Color) (hc : h.colors[i]? = some c)
    (hcl : c.cls = s) (hct : c.ctype = s) : Converter.to_hsi (some i) h = direct s .hsi (some i) h := by
  unfold Converter.to_hsi
  rw [Prog.bind_def]
  simp only [load, hc]
  rw [hct]
  cases s
  case undefined => exact absurd rfl hs
  case rgbTrue => exact cast_then .rgbTrue Converter.rgb_true_to_hsi h i c hc hcl
  case rgbDeep => exact cast_then .rgbDeep Converter.rgb_deep_to_hsi h i c hc hcl
  case greyTrue => exact cast_then .greyTrue Converter.grey_true_to_hsi h i c hc hcl
  case greyDeep => exact cast_then .greyDeep Converter.grey_deep_to_hsi h i c hc hcl
  case cmyk => exact cast_then .cmyk Converter.cmyk_to_hsi h i c hc hcl
  case hsi => exact cast_eq _ h i c hc hcl
  case hsv => exact cast_then .hsv Converter.hsv_to_hsi h i c hc hcl
  case hsl => exact cast_then .hsl Converter.hsl_to_hsi h i c hc hcl
  case hcy => exact cast_then .hcy Converter.hcy_to_hsi h i c hc hcl
  case xyz => exact cast_then .xyz Converter.xyz_to_hsi h i c hc hcl
  case xyy => exact cast_then .xyy Converter.xyy_to_hsi h i c hc hcl
  case cieluv => exact cast_then .cieluv Converter.cieluv_to_hsi h i c hc hcl
  case lab => exact cast_then .lab Converter.lab_to_hsi h i c hc hcl
  case lchAb => exact cast_then .lchAb Converter.lch_ab_to_hsi h i c hc hcl
  case lchUv => exact cast_then .lchUv Converter.lch_uv_to_hsi h i c hc hcl
theorem dispatch_hsv (s : ColorType) (hs : s ≠ .undefined) (h : Heap) (i : Nat) (c : Color) (hc : h.colors[i]? = some c)
    (hcl : c.cls = s) (hct : c.ctype = s) : Converter.to_hsv (some i) h = direct s .hsv (some i) h := by
  unfold Converter.to_hsv
  rw [Prog.bind_def]
  simp only [load, hc]
  rw [hct]
  cases s
  case undefined => exact absurd rfl hs
  case rgbTrue => exact cast_then .rgbTrue Converter.rgb_true_to_hsv h i c hc hcl
  case rgbDeep => exact cast_then .rgbDeep Converter.rgb_deep_to_hsv h i c hc hcl
  case greyTrue => exact cast_then .greyTrue Converter.grey_true_to_hsv h i c hc hcl
  case greyDeep => exact cast_then .greyDeep Converter.grey_deep_to_hsv h i c hc hcl
  case cmyk => exact cast_then .cmyk Converter.cmyk_to_hsv h i c hc hcl
  case hsi => exact cast_then .hsi Converter.hsi_to_hsv h i c hc hcl
  case hsv => exact cast_eq _ h i c hc hcl
  case hsl => exact cast_then .hsl Converter.hsl_to_hsv h i c hc hcl
  case hcy => exact cast_then .hcy Converter.hcy_to_hsv h i c hc hcl
  case xyz => exact cast_then .xyz Converter.xyz_to_hsv h i c hc hcl
  case xyy => exact cast_then .xyy Converter.xyy_to_hsv h i c hc hcl
  case cieluv => exact cast_then .cieluv Converter.cieluv_to_hsv h i c hc hcl
  case lab => exact cast_then .lab Converter.lab_to_hsv h i c hc hcl
  case lchAb => exact cast_then .lchAb Converter.lch_ab_to_hsv h i c hc hcl
  case lchUv => exact cast_then .lchUv Converter.lch_uv_to_hsv h i c hc hcl
theorem dispatch_hsl (s : ColorType) (hs : s ≠ .undefined) (h : Heap) (i : Nat) (c : Color) (hc : h.colors[i]? = some c)
    (hcl : c.cls = s) (hct : c.ctype = s) : Converter.to_hsl (some i) h = direct s .hsl (some i) h := by
  unfold Converter.to_hsl
  rw [Prog.bind_def]
  simp only [load, hc]
  rw [hct]
  cases s
  case undefined => exact absurd rfl hs
  case rgbTrue => exact cast_then .rgbTrue Converter.rgb_true_to_hsl h i c hc hcl
  case rgbDeep => exact cast_then .rgbDeep Converter.rgb_deep_to_hsl h i c hc hcl
  case greyTrue => exact cast_then .greyTrue Converter.grey_true_to_hsl h i c hc hcl
  case greyDeep => exact cast_then .greyDeep Converter.grey_deep_to_hsl h i c hc hcl
  case cmyk => exact cast_then .cmyk Converter.cmyk_to_hsl h i c hc hcl
  case hsi => exact cast_then .hsi Converter.hsi_to_hsl h i c hc hcl
  case hsv => exact cast_then .hsv Converter.hsv_to_hsl h i c hc hcl
  case hsl => exact cast_eq _ h i c hc hcl
  case hcy => exact cast_then .hcy Converter.hcy_to_hsl h i c hc hcl
  case xyz => exact cast_then .xyz Converter.xyz_to_hsl h i c hc hcl
  case xyy => exact cast_then .xyy Converter.xyy_to_hsl h i c hc hcl
  case cieluv => exact cast_then .cieluv Converter.cieluv_to_hsl h i c hc hcl
  case lab => exact cast_then .lab Converter.lab_to_hsl h i c hc hcl
  case lchAb => exact cast_then .lchAb Converter.lch_ab_to_hsl h i c hc hcl
  case lchUv => exact cast_then .lchUv Converter.lch_uv_to_hsl h i c hc hcl
theorem dispatch_hcy (s : ColorType) (hs : s ≠ .undefined) (h : Heap) (i : Nat) (c : Color) (hc : h.colors[i]? = some c)
    (hcl : c.cls = s) (hct : c.ctype = s) : Converter.to_hcy (some i) h = direct s .hcy (some i) h := by
  unfold Converter.to_hcy
  rw [Prog.bind_def]
  simp only [load, hc]
  rw [hct]
  cases s
  case undefined => exact absurd rfl hs
  case rgbTrue => exact cast_then .rgbTrue Converter.rgb_true_to_hcy h i c hc hcl
  case rgbDeep => exact cast_then .rgbDeep Converter.rgb_deep_to_hcy h i c hc hcl
  case greyTrue => exact cast_then .greyTrue Converter.grey_true_to_hcy h i c hc hcl
  case greyDeep => exact cast_then .greyDeep Converter.grey_deep_to_hcy h i c hc hcl
  case cmyk => exact cast_then .cmyk Converter.cmyk_to_hcy h i c hc hcl
  case hsi => exact cast_then .hsi Converter.hsi_to_hcy h i c hc hcl
  case hsv => exact cast_then .hsv Converter.hsv_to_hcy h i c hc hcl
  case hsl => exact cast_then .hsl Converter.hsl_to_hcy h i c hc hcl
  case hcy => exact cast_eq _ h i c hc hcl
  case xyz => exact cast_then .xyz Converter.xyz_to_hcy h i c hc hcl
  case xyy => exact cast_then .xyy Converter.xyy_to_hcy h i c hc hcl
  case cieluv => exact cast_then .cieluv Converter.cieluv_to_hcy h i c hc hcl
  case lab => exact cast_then .lab Converter.lab_to_hcy h i c hc hcl
  case lchAb => exact cast_then .lchAb Converter.lch_ab_to_hcy h i c hc hcl
  case lchUv => exact cast_then .lchUv Converter.lch_uv_to_hcy h i c hc hcl
theorem dispatch_xyz (s : ColorType) (hs : s ≠ .undefined) (h : Heap) (i : Nat) (c : Color) (hc : h.colors[i]? = some c)
    (hcl : c.cls = s) (hct : c.ctype = s) : Converter.to_xyz (some i) h = direct s .xyz (some i) h := by
  unfold Converter.to_xyz
  rw [Prog.bind_def]
  simp only [load, hc]
  rw [hct]
  cases s
  case undefined => exact absurd rfl hs
  case rgbTrue => exact cast_then .rgbTrue Converter.rgb_true_to_xyz h i c hc hcl
  case rgbDeep => exact cast_then .rgbDeep Converter.rgb_deep_to_xyz h i c hc hcl
  case greyTrue => exact cast_then .greyTrue Converter.grey_true_to_xyz h i c hc hcl
  case greyDeep => exact cast_then .greyDeep Converter.grey_deep_to_xyz h i c hc hcl
  case cmyk => exact cast_then .cmyk Converter.cmyk_to_xyz h i c hc hcl
  case hsi => exact cast_then .hsi Converter.hsi_to_xyz h i c hc hcl
  case hsv => exact cast_then .hsv Converter.hsv_to_xyz h i c hc hcl
  case hsl => exact cast_then .hsl Converter.hsl_to_xyz h i c hc hcl
  case hcy => exact cast_then .hcy Converter.hcy_to_xyz h i c hc hcl
  case xyz => exact cast_eq _ h i c hc hcl
  case xyy => exact cast_then .xyy Converter.xyy_to_xyz h i c hc hcl
  case cieluv => exact cast_then .cieluv Converter.cieluv_to_xyz h i c hc hcl
  case lab => exact cast_then .lab Converter.lab_to_xyz h i c hc hcl
  case lchAb => exact cast_then .lchAb Converter.lch_ab_to_xyz h i c hc hcl
  case lchUv => exact cast_then .lchUv Converter.lch_uv_to_xyz h i c hc hcl
theorem dispatch_xyy (s : ColorType) (hs : s ≠ .undefined) (h : Heap) (i : Nat) (c : Color) (hc : h.colors[i]? = some c)
    (hcl : c.cls = s) (hct : c.ctype = s) : Converter.to_xyy (some i) h = direct s .xyy (some i) h := by
  unfold Converter.to_xyy
  rw [Prog.bind_def]
  simp only [load, hc]
  rw [hct]
  cases s
  case undefined => exact absurd rfl hs
  case rgbTrue => exact cast_then .rgbTrue Converter.rgb_true_to_xyy h i c hc hcl
  case rgbDeep => exact cast_then .rgbDeep Converter.rgb_deep_to_xyy h i c hc hcl
  case greyTrue => exact cast_then .greyTrue Converter.grey_true_to_xyy h i c hc hcl
  case greyDeep => exact cast_then .greyDeep Converter.grey_deep_to_xyy h i c hc hcl
  case cmyk => exact cast_then .cmyk Converter.cmyk_to_xyy h i c hc hcl
  case hsi => exact cast_then .hsi Converter.hsi_to_xyy h i c hc hcl
  case hsv => exact cast_then .hsv Converter.hsv_to_xyy h i c hc hcl
  case hsl => exact cast_then .hsl Converter.hsl_to_xyy h i c hc hcl
  case hcy => exact cast_then .hcy Converter.hcy_to_xyy h i c hc hcl
  case xyz => exact cast_then .xyz Converter.xyz_to_xyy h i c hc hcl
  case xyy => exact cast_eq _ h i c hc hcl
  case cieluv => exact cast_then .cieluv Converter.cieluv_to_xyy h i c hc hcl
  case lab => exact cast_then .lab Converter.lab_to_xyy h i c hc hcl
  case lchAb => exact cast_then .lchAb Converter.lch_ab_to_xyy h i c hc hcl
  case lchUv => exact cast_then .lchUv Converter.lch_uv_to_xyy h i c hc hcl
theorem dispatch_cieluv (s : ColorType) (hs : s ≠ .undefined) (h : Heap) (i : Nat) (c : Color) (hc : h.colors[i]? = some c)
    (hcl : c.cls = s) (hct : c.ctype = s) : Converter.to_cieluv (some i) h = direct s .cieluv (some i) h := by
  unfold Converter.to_cieluv
  rw [Prog.bind_def]
  simp only [load, hc]
  rw [hct]
  cases s
  case undefined => exact absurd rfl hs
  case rgbTrue => exact cast_then .rgbTrue Converter.rgb_true_to_cieluv h i c hc hcl
  case rgbDeep => exact cast_then .rgbDeep Converter.rgb_deep_to_cieluv h i c hc hcl
  case greyTrue => exact cast_then .greyTrue Converter.grey_true_to_cieluv h i c hc hcl
  case greyDeep => exact cast_then .greyDeep Converter.grey_deep_to_cieluv h i c hc hcl
  case cmyk => exact cast_then .cmyk Converter.cmyk_to_cieluv h i c hc hcl
  case hsi => exact cast_then .hsi Converter.hsi_to_cieluv h i c hc hcl
  case hsv => exact cast_then .hsv Converter.hsv_to_cieluv h i c hc hcl
  case hsl => exact cast_then .hsl Converter.hsl_to_cieluv h i c hc hcl
  case hcy => exact cast_then .hcy Converter.hcy_to_cieluv h i c hc hcl
  case xyz => exact cast_then .xyz Converter.xyz_to_cieluv h i c hc hcl
  case xyy => exact cast_then .xyy Converter.xyy_to_cieluv h i c hc hcl
  case cieluv => exact cast_eq _ h i c hc hcl
  case lab => exact cast_then .lab Converter.lab_to_cieluv h i c hc hcl
  case lchAb => exact cast_then .lchAb Converter.lch_ab_to_cieluv h i c hc hcl
  case lchUv => exact cast_then .lchUv Converter.lch_uv_to_cieluv h i c hc hcl
theorem dispatch_lab (s : ColorType) (hs : s ≠ .undefined) (h : Heap) (i : Nat) (c : Color) (hc : h.colors[i]? = some c)
    (hcl : c.cls = s) (hct : c.ctype = s) : Converter.to_lab (some i) h = direct s .lab (some i) h := by
  unfold Converter.to_lab
  rw [Prog.bind_def]
  simp only [load, hc]
  rw [hct]
  cases s
  case undefined => exact absurd rfl hs
  case rgbTrue => exact cast_then .rgbTrue Converter.rgb_true_to_lab h i c hc hcl
  case rgbDeep => exact cast_then .rgbDeep Converter.rgb_deep_to_lab h i c hc hcl
  case greyTrue => exact cast_then .greyTrue Converter.grey_true_to_lab h i c hc hcl
  case greyDeep => exact cast_then .greyDeep Converter.grey_deep_to_lab h i c hc hcl
  case cmyk => exact cast_then .cmyk Converter.cmyk_to_lab h i c hc hcl
  case hsi => exact cast_then .hsi Converter.hsi_to_lab h i c hc hcl
  case hsv => exact cast_then .hsv Converter.hsv_to_lab h i c hc hcl
  case hsl => exact cast_then .hsl Converter.hsl_to_lab h i c hc hcl
  case hcy => exact cast_then .hcy Converter.hcy_to_lab h i c hc hcl
  case xyz => exact cast_then .xyz Converter.xyz_to_lab h i c hc hcl
  case xyy => exact cast_then .xyy Converter.xyy_to_lab h i c hc hcl
  case cieluv => exact cast_then .cieluv Converter.cieluv_to_lab h i c hc hcl
  case lab => exact cast_eq _ h i c hc hcl
  case lchAb => exact cast_then .lchAb Converter.lch_ab_to_lab h i c hc hcl
  case lchUv => exact cast_then .lchUv Converter.lch_uv_to_lab h i c hc hcl
theorem dispatch_lch_ab (s : ColorType) (hs : s ≠ .undefined) (h : Heap) (i : Nat) (c : Color) (hc : h.colors[i]? = some c)
    (hcl : c.cls = s) (hct : c.ctype = s) : Converter.to_lch_ab (some i) h = direct s .lchAb (some i) h := by
  unfold Converter.to_lch_ab
  rw [Prog.bind_def]
  simp only [load, hc]
  rw [hct]
  cases s
  case undefined => exact absurd rfl hs
  case rgbTrue => exact cast_then .rgbTrue Converter.rgb_true_to_lch_ab h i c hc hcl
  case rgbDeep => exact cast_then .rgbDeep Converter.rgb_deep_to_lch_ab h i c hc hcl
  case greyTrue => exact cast_then .greyTrue Converter.grey_true_to_lch_ab h i c hc hcl
  case greyDeep => exact cast_then .greyDeep Converter.grey_deep_to_lch_ab h i c hc hcl
  case cmyk => exact cast_then .cmyk Converter.cmyk_to_lch_ab h i c hc hcl
  case hsi => exact cast_then .hsi Converter.hsi_to_lch_ab h i c hc hcl
  case hsv => exact cast_then .hsv Converter.hsv_to_lch_ab h i c hc hcl
  case hsl => exact cast_then .hsl Converter.hsl_to_lch_ab h i c hc hcl
  case hcy => exact cast_then .hcy Converter.hcy_to_lch_ab h i c hc hcl
  case xyz => exact cast_then .xyz Converter.xyz_to_lch_ab h i c hc hcl
  case xyy => exact cast_then .xyy Converter.xyy_to_lch_ab h i c hc hcl
  case cieluv => exact cast_then .cieluv Converter.cieluv_to_lch_ab h i c hc hcl
  case lab => exact cast_then .lab Converter.lab_to_lch_ab h i c hc hcl
  case lchAb => exact cast_eq _ h i c hc hcl
  case lchUv => exact cast_then .lchUv Converter.lch_uv_to_lch_ab h i c hc hcl
theorem dispatch_lch_uv (s : ColorType) (hs : s ≠ .undefined) (h : Heap) (i : Nat) (c : Color) (hc : h.colors[i]? = some c)
    (hcl : c.cls = s) (hct : c.ctype = s) : Converter.to_lch_uv (some i) h = direct s .lchUv (some i) h := by
  unfold Converter.to_lch_uv
  rw [Prog.bind_def]
  simp only [load, hc]
  rw [hct]
  cases s
  case undefined => exact absurd rfl hs
  case rgbTrue => exact cast_then .rgbTrue Converter.rgb_true_to_lch_uv h i c hc hcl
  case rgbDeep => exact cast_then .rgbDeep Converter.rgb_deep_to_lch_uv h i c hc hcl
  case greyTrue => exact cast_then .greyTrue Converter.grey_true_to_lch_uv h i c hc hcl
  case greyDeep => exact cast_then .greyDeep Converter.grey_deep_to_lch_uv h i c hc hcl
  case cmyk => exact cast_then .cmyk Converter.cmyk_to_lch_uv h i c hc hcl
  case hsi => exact cast_then .hsi Converter.hsi_to_lch_uv h i c hc hcl
  case hsv => exact cast_then .hsv Converter.hsv_to_lch_uv h i c hc hcl
  case hsl => exact cast_then .hsl Converter.hsl_to_lch_uv h i c hc hcl
  case hcy => exact cast_then .hcy Converter.hcy_to_lch_uv h i c hc hcl
  case xyz => exact cast_then .xyz Converter.xyz_to_lch_uv h i c hc hcl
  case xyy => exact cast_then .xyy Converter.xyy_to_lch_uv h i c hc hcl
  case cieluv => exact cast_then .cieluv Converter.cieluv_to_lch_uv h i c hc hcl
  case lab => exact cast_then .lab Converter.lab_to_lch_uv h i c hc hcl
  case lchAb => exact cast_then .lchAb Converter.lch_ab_to_lch_uv h i c hc hcl
  case lchUv => exact cast_eq _ h i c hc hcl

theorem dispatch_eq (s t : ColorType) (hs : s ≠ .undefined) (ht : t ≠ .undefined) (h : Heap) (i : Nat) (c : Color) (hc : h.colors[i]? = some c)
    (hcl : c.cls = s) (hct : c.ctype = s) : dispatcher t (some i) h = direct s t (some i) h := by
  cases t
  case undefined => exact absurd rfl ht
  case rgbTrue => exact dispatch_rgb_true s hs h i c hc hcl hct
  case rgbDeep => exact dispatch_rgb_deep s hs h i c hc hcl hct
  case greyTrue => exact dispatch_grey_true s hs h i c hc hcl hct
  case greyDeep => exact dispatch_grey_deep s hs h i c hc hcl hct
  case cmyk => exact dispatch_cmyk s hs h i c hc hcl hct
  case hsi => exact dispatch_hsi s hs h i c hc hcl hct
  case hsv => exact dispatch_hsv s hs h i c hc hcl hct
  case hsl => exact dispatch_hsl s hs h i c hc hcl hct
  case hcy => exact dispatch_hcy s hs h i c hc hcl hct
  case xyz => exact dispatch_xyz s hs h i c hc hcl hct
  case xyy => exact dispatch_xyy s hs h i c hc hcl hct
  case cieluv => exact dispatch_cieluv s hs h i c hc hcl hct
  case lab => exact dispatch_lab s hs h i c hc hcl hct
  case lchAb => exact dispatch_lch_ab s hs h i c hc hcl hct
  case lchUv => exact dispatch_lch_uv s hs h i c hc hcl hct

theorem computes_rgb_true (t : ColorType) (ht : t ≠ .undefined) (hst : .rgbTrue ≠ t) : Computes (direct .rgbTrue t) (Val.conv .rgbTrue t) (effect .rgbTrue t) := by
  cases t
  case undefined => exact absurd rfl ht
  case rgbTrue => exact absurd rfl hst
  case rgbDeep => exact c_rgb_true_to_rgb_deep
  case greyTrue => exact c_rgb_true_to_grey_true
  case greyDeep => exact c_rgb_true_to_grey_deep
  case cmyk => exact c_rgb_true_to_cmyk
  case hsi => exact c_rgb_true_to_hsi
  case hsv => exact c_rgb_true_to_hsv
  case hsl => exact c_rgb_true_to_hsl
  case hcy => exact c_rgb_true_to_hcy
  case xyz => exact c_rgb_true_to_xyz
  case xyy => exact c_rgb_true_to_xyy
  case cieluv => exact c_rgb_true_to_cieluv
  case lab => exact c_rgb_true_to_lab
  case lchAb => exact c_rgb_true_to_lch_ab
  case lchUv => exact c_rgb_true_to_lch_uv

theorem good_rgb_true (t : ColorType) (ht : t ≠ .undefined) (hst : .rgbTrue ≠ t) : Good .rgbTrue t (Val.conv .rgbTrue t) := by
  cases t
  case undefined => exact absurd rfl ht
  case rgbTrue => exact absurd rfl hst
  case rgbDeep => exact g_rgb_true_to_rgb_deep
  case greyTrue => exact g_rgb_true_to_grey_true
  case greyDeep => exact g_rgb_true_to_grey_deep
  case cmyk => exact g_rgb_true_to_cmyk
  case hsi => exact g_rgb_true_to_hsi
  case hsv => exact g_rgb_true_to_hsv
  case hsl => exact g_rgb_true_to_hsl
  case hcy => exact g_rgb_true_to_hcy
  case xyz => exact g_rgb_true_to_xyz
  case xyy => exact g_rgb_true_to_xyy
  case cieluv => exact g_rgb_true_to_cieluv
  case lab => exact g_rgb_true_to_lab
  case lchAb => exact g_rgb_true_to_lch_ab
  case lchUv => exact g_rgb_true_to_lch_uv

theorem computes_rgb_deep (t : ColorType) (ht : t ≠ .undefined) (hst : .rgbDeep ≠ t) : Computes (direct .rgbDeep t) (Val.conv .rgbDeep t) (effect .rgbDeep t) := by
  cases t
  case undefined => exact absurd rfl ht
  case rgbDeep => exact absurd rfl hst
  case rgbTrue => exact c_rgb_deep_to_rgb_true
  case greyTrue => exact c_rgb_deep_to_grey_true
  case greyDeep => exact c_rgb_deep_to_grey_deep
  case cmyk => exact c_rgb_deep_to_cmyk
  case hsi => exact c_rgb_deep_to_hsi
  case hsv => exact c_rgb_deep_to_hsv
  case hsl => exact c_rgb_deep_to_hsl
  case hcy => exact c_rgb_deep_to_hcy
  case xyz => exact c_rgb_deep_to_xyz
  case xyy => exact c_rgb_deep_to_xyy
  case cieluv => exact c_rgb_deep_to_cieluv
  case lab => exact c_rgb_deep_to_lab
  case lchAb => exact c_rgb_deep_to_lch_ab
  case lchUv => exact c_rgb_deep_to_lch_uv

theorem good_rgb_deep (t : ColorType) (ht : t ≠ .undefined) (hst : .rgbDeep ≠ t) : Good .rgbDeep t (Val.conv .rgbDeep t) := by
  cases t
  case undefined => exact absurd rfl ht
  case rgbDeep => exact absurd rfl hst
  case rgbTrue => exact g_rgb_deep_to_rgb_true
  case greyTrue => exact g_rgb_deep_to_grey_true
  case greyDeep => exact g_rgb_deep_to_grey_deep
  case cmyk => exact g_rgb_deep_to_cmyk
  case hsi => exact g_rgb_deep_to_hsi
  case hsv => exact g_rgb_deep_to_hsv
  case hsl => exact g_rgb_deep_to_hsl
  case hcy => exact g_rgb_deep_to_hcy
  case xyz => exact g_rgb_deep_to_xyz
  case xyy => exact g_rgb_deep_to_xyy
  case cieluv => exact g_rgb_deep_to_cieluv
  case lab => exact g_rgb_deep_to_lab
  case lchAb => exact g_rgb_deep_to_lch_ab
  case lchUv => exact g_rgb_deep_to_lch_uv

theorem computes_grey_true (t : ColorType) (ht : t ≠ .undefined) (hst : .greyTrue ≠ t) : Computes (direct .greyTrue t) (Val.conv .greyTrue t) (effect .greyTrue t) := by
  cases t
  case undefined => exact absurd rfl ht
  case greyTrue => exact absurd rfl hst
  case rgbTrue => exact c_grey_true_to_rgb_true
  case rgbDeep => exact c_grey_true_to_rgb_deep
  case greyDeep => exact c_grey_true_to_grey_deep
  case cmyk => exact c_grey_true_to_cmyk
  case hsi => exact c_grey_true_to_hsi
  case hsv => exact c_grey_true_to_hsv
  case hsl => exact c_grey_true_to_hsl
  case hcy => exact c_grey_true_to_hcy
  case xyz => exact c_grey_true_to_xyz
  case xyy => exact c_grey_true_to_xyy
  case cieluv => exact c_grey_true_to_cieluv
  case lab => exact c_grey_true_to_lab
  case lchAb => exact c_grey_true_to_lch_ab
  case lchUv => exact c_grey_true_to_lch_uv

theorem good_grey_true (t : ColorType) (ht : t ≠ .undefined) (hst : .greyTrue ≠ t) : Good .greyTrue t (Val.conv .greyTrue t) := by
  cases t
  case undefined => exact absurd rfl ht
  case greyTrue => exact absurd rfl hst
  case rgbTrue => exact g_grey_true_to_rgb_true
  case rgbDeep => exact g_grey_true_to_rgb_deep
  case greyDeep => exact g_grey_true_to_grey_deep
  case cmyk => exact g_grey_true_to_cmyk
  case hsi => exact g_grey_true_to_hsi
  case hsv => exact g_grey_true_to_hsv
  case hsl => exact g_grey_true_to_hsl
  case hcy => exact g_grey_true_to_hcy
  case xyz => exact g_grey_true_to_xyz
  case xyy => exact g_grey_true_to_xyy
  case cieluv => exact g_grey_true_to_cieluv
  case lab => exact g_grey_true_to_lab
  case lchAb => exact g_grey_true_to_lch_ab
  case lchUv => exact g_grey_true_to_lch_uv

theorem computes_grey_deep (t : ColorType) (ht : t ≠ .undefined) (hst : .greyDeep ≠ t) : Computes (direct .greyDeep t) (Val.conv .greyDeep t) (effect .greyDeep t) := by
  cases t
  case undefined => exact absurd rfl ht
  case greyDeep => exact absurd rfl hst
  case rgbTrue => exact c_grey_deep_to_rgb_true
  case rgbDeep => exact c_grey_deep_to_rgb_deep
  case greyTrue => exact c_grey_deep_to_grey_true
  case cmyk => exact c_grey_deep_to_cmyk
  case hsi => exact c_grey_deep_to_hsi
  case hsv => exact c_grey_deep_to_hsv
  case hsl => exact c_grey_deep_to_hsl
  case hcy => exact c_grey_deep_to_hcy
  case xyz => exact c_grey_deep_to_xyz
  case xyy => exact c_grey_deep_to_xyy
  case cieluv => exact c_grey_deep_to_cieluv
  case lab => exact c_grey_deep_to_lab
  case lchAb => exact c_grey_deep_to_lch_ab
  case lchUv => exact c_grey_deep_to_lch_uv

theorem good_grey_deep (t : ColorType) (ht : t ≠ .undefined) (hst : .greyDeep ≠ t) : Good .greyDeep t (Val.conv .greyDeep t) := by
  cases t
  case undefined => exact absurd rfl ht
  case greyDeep => exact absurd rfl hst
  case rgbTrue => exact g_grey_deep_to_rgb_true
  case rgbDeep => exact g_grey_deep_to_rgb_deep
  case greyTrue => exact g_grey_deep_to_grey_true
  case cmyk => exact g_grey_deep_to_cmyk
  case hsi => exact g_grey_deep_to_hsi
  case hsv => exact g_grey_deep_to_hsv
  case hsl => exact g_grey_deep_to_hsl
  case hcy => exact g_grey_deep_to_hcy
  case xyz => exact g_grey_deep_to_xyz
  case xyy => exact g_grey_deep_to_xyy
  case cieluv => exact g_grey_deep_to_cieluv
  case lab => exact g_grey_deep_to_lab
  case lchAb => exact g_grey_deep_to_lch_ab
  case lchUv => exact g_grey_deep_to_lch_uv

theorem computes_cmyk (t : ColorType) (ht : t ≠ .undefined) (hst : .cmyk ≠ t) : Computes (direct .cmyk t) (Val.conv .cmyk t) (effect .cmyk t) := by
  cases t
  case undefined => exact absurd rfl ht
  case cmyk => exact absurd rfl hst
  case rgbTrue => exact c_cmyk_to_rgb_true
  case rgbDeep => exact c_cmyk_to_rgb_deep
  case greyTrue => exact c_cmyk_to_grey_true
  case greyDeep => exact c_cmyk_to_grey_deep
  case hsi => exact c_cmyk_to_hsi
  case hsv => exact c_cmyk_to_hsv
  case hsl => exact c_cmyk_to_hsl
  case hcy => exact c_cmyk_to_hcy
  case xyz => exact c_cmyk_to_xyz
  case xyy => exact c_cmyk_to_xyy
  case cieluv => exact c_cmyk_to_cieluv
  case lab => exact c_cmyk_to_lab
  case lchAb => exact c_cmyk_to_lch_ab
  case lchUv => exact c_cmyk_to_lch_uv

theorem good_cmyk (t : ColorType) (ht : t ≠ .undefined) (hst : .cmyk ≠ t) : Good .cmyk t (Val.conv .cmyk t) := by
  cases t
  case undefined => exact absurd rfl ht
  case cmyk => exact absurd rfl hst
  case rgbTrue => exact g_cmyk_to_rgb_true
  case rgbDeep => exact g_cmyk_to_rgb_deep
  case greyTrue => exact g_cmyk_to_grey_true
  case greyDeep => exact g_cmyk_to_grey_deep
  case hsi => exact g_cmyk_to_hsi
  case hsv => exact g_cmyk_to_hsv
  case hsl => exact g_cmyk_to_hsl
  case hcy => exact g_cmyk_to_hcy
  case xyz => exact g_cmyk_to_xyz
  case xyy => exact g_cmyk_to_xyy
  case cieluv => exact g_cmyk_to_cieluv
  case lab => exact g_cmyk_to_lab
  case lchAb => exact g_cmyk_to_lch_ab
  case lchUv => exact g_cmyk_to_lch_uv

theorem computes_hsi (t : ColorType) (ht : t ≠ .undefined) (hst : .hsi ≠ t) : Computes (direct .hsi t) (Val.conv .hsi t) (effect .hsi t) := by
  cases t
  case undefined => exact absurd rfl ht
  case hsi => exact absurd rfl hst
  case rgbTrue => exact c_hsi_to_rgb_true
  case rgbDeep => exact c_hsi_to_rgb_deep
  case greyTrue => exact c_hsi_to_grey_true
  case greyDeep => exact c_hsi_to_grey_deep
  case cmyk => exact c_hsi_to_cmyk
  case hsv => exact c_hsi_to_hsv
  case hsl => exact c_hsi_to_hsl
  case hcy => exact c_hsi_to_hcy
  case xyz => exact c_hsi_to_xyz
  case xyy => exact c_hsi_to_xyy
  case cieluv => exact c_hsi_to_cieluv
  case lab => exact c_hsi_to_lab
  case lchAb => exact c_hsi_to_lch_ab
  case lchUv => exact c_hsi_to_lch_uv

theorem good_hsi (t : ColorType) (ht : t ≠ .undefined) (hst : .hsi ≠ t) : Good .hsi t (Val.conv .hsi t) := by
  cases t
  case undefined => exact absurd rfl ht
  case hsi => exact absurd rfl hst
  case rgbTrue => exact g_hsi_to_rgb_true
  case rgbDeep => exact g_hsi_to_rgb_deep
  case greyTrue => exact g_hsi_to_grey_true
  case greyDeep => exact g_hsi_to_grey_deep
  case cmyk => exact g_hsi_to_cmyk
  case hsv => exact g_hsi_to_hsv
  case hsl => exact g_hsi_to_hsl
  case hcy => exact g_hsi_to_hcy
  case xyz => exact g_hsi_to_xyz
  case xyy => exact g_hsi_to_xyy
  case cieluv => exact g_hsi_to_cieluv
  case lab => exact g_hsi_to_lab
  case lchAb => exact g_hsi_to_lch_ab
  case lchUv => exact g_hsi_to_lch_uv

theorem computes_hsv (t : ColorType) (ht : t ≠ .undefined) (hst : .hsv ≠ t) : Computes (direct .hsv t) (Val.conv .hsv t) (effect .hsv t) := by
  cases t
  case undefined => exact absurd rfl ht
  case hsv => exact absurd rfl hst
  case rgbTrue => exact c_hsv_to_rgb_true
  case rgbDeep => exact c_hsv_to_rgb_deep
  case greyTrue => exact c_hsv_to_grey_true
  case greyDeep => exact c_hsv_to_grey_deep
  case cmyk => exact c_hsv_to_cmyk
  case hsi => exact c_hsv_to_hsi
  case hsl => exact c_hsv_to_hsl
  case hcy => exact c_hsv_to_hcy
  case xyz => exact c_hsv_to_xyz
  case xyy => exact c_hsv_to_xyy
  case cieluv => exact c_hsv_to_cieluv
  case lab => exact c_hsv_to_lab
  case lchAb => exact c_hsv_to_lch_ab
  case lchUv => exact c_hsv_to_lch_uv

theorem good_hsv (t : ColorType) (ht : t ≠ .undefined) (hst : .hsv ≠ t) : Good .hsv t (Val.conv .hsv t) := by
  cases t
  case undefined => exact absurd rfl ht
  case hsv => exact absurd rfl hst
  case rgbTrue => exact g_hsv_to_rgb_true
  case rgbDeep => exact g_hsv_to_rgb_deep
  case greyTrue => exact g_hsv_to_grey_true
  case greyDeep => exact g_hsv_to_grey_deep
  case cmyk => exact g_hsv_to_cmyk
  case hsi => exact g_hsv_to_hsi
  case hsl => exact g_hsv_to_hsl
  case hcy => exact g_hsv_to_hcy
  case xyz => exact g_hsv_to_xyz
  case xyy => exact g_hsv_to_xyy
  case cieluv => exact g_hsv_to_cieluv
  case lab => exact g_hsv_to_lab
  case lchAb => exact g_hsv_to_lch_ab
  case lchUv => exact g_hsv_to_lch_uv

theorem computes_hsl (t : ColorType) (ht : t ≠ .undefined) (hst : .hsl ≠ t) : Computes (direct .hsl t) (Val.conv .hsl t) (effect .hsl t) := by
  cases t
  case undefined => exact absurd rfl ht
  case hsl => exact absurd rfl hst
  case rgbTrue => exact c_hsl_to_rgb_true
  case rgbDeep => exact c_hsl_to_rgb_deep
  case greyTrue => exact c_hsl_to_grey_true
  case greyDeep => exact c_hsl_to_grey_deep
  case cmyk => exact c_hsl_to_cmyk
  case hsi => exact c_hsl_to_hsi
  case hsv => exact c_hsl_to_hsv
  case hcy => exact c_hsl_to_hcy
  case xyz => exact c_hsl_to_xyz
  case xyy => exact c_hsl_to_xyy
  case cieluv => exact c_hsl_to_cieluv
  case lab => exact c_hsl_to_lab
  case lchAb => exact c_hsl_to_lch_ab
  case lchUv => exact c_hsl_to_lch_uv

theorem good_hsl (t : ColorType) (ht : t ≠ .undefined) (hst : .hsl ≠ t) : Good .hsl t (Val.conv .hsl t) := by
  cases t
  case undefined => exact absurd rfl ht
  case hsl => exact absurd rfl hst
  case rgbTrue => exact g_hsl_to_rgb_true
  case rgbDeep => exact g_hsl_to_rgb_deep
  case greyTrue => exact g_hsl_to_grey_true
  case greyDeep => exact g_hsl_to_grey_deep
  case cmyk => exact g_hsl_to_cmyk
  case hsi => exact g_hsl_to_hsi
  case hsv => exact g_hsl_to_hsv
  case hcy => exact g_hsl_to_hcy
  case xyz => exact g_hsl_to_xyz
  case xyy => exact g_hsl_to_xyy
  case cieluv => exact g_hsl_to_cieluv
  case lab => exact g_hsl_to_lab
  case lchAb => exact g_hsl_to_lch_ab
  case lchUv => exact g_hsl_to_lch_uv

theorem computes_hcy (t : ColorType) (ht : t ≠ .undefined) (hst : .hcy ≠ t) : Computes (direct .hcy t) (Val.conv .hcy t) (effect .hcy t) := by
  cases t
  case undefined => exact absurd rfl ht
  case hcy => exact absurd rfl hst
  case rgbTrue => exact c_hcy_to_rgb_true
  case rgbDeep => exact c_hcy_to_rgb_deep
  case greyTrue => exact c_hcy_to_grey_true
  case greyDeep => exact c_hcy_to_grey_deep
  case cmyk => exact c_hcy_to_cmyk
  case hsi => exact c_hcy_to_hsi
  case hsv => exact c_hcy_to_hsv
  case hsl => exact c_hcy_to_hsl
  case xyz => exact c_hcy_to_xyz
  case xyy => exact c_hcy_to_xyy
  case cieluv => exact c_hcy_to_cieluv
  case lab => exact c_hcy_to_lab
  case lchAb => exact c_hcy_to_lch_ab
  case lchUv => exact c_hcy_to_lch_uv

theorem good_hcy (t : ColorType) (ht : t ≠ .undefined) (hst : .hcy ≠ t) : Good .hcy t (Val.conv .hcy t) := by
  cases t
  case undefined => exact absurd rfl ht
  case hcy => exact absurd rfl hst
  case rgbTrue => exact g_hcy_to_rgb_true
  case rgbDeep => exact g_hcy_to_rgb_deep
  case greyTrue => exact g_hcy_to_grey_true
  case greyDeep => exact g_hcy_to_grey_deep
  case cmyk => exact g_hcy_to_cmyk
  case hsi => exact g_hcy_to_hsi
  case hsv => exact g_hcy_to_hsv
  case hsl => exact g_hcy_to_hsl
  case xyz => exact g_hcy_to_xyz
  case xyy => exact g_hcy_to_xyy
  case cieluv => exact g_hcy_to_cieluv
  case lab => exact g_hcy_to_lab
  case lchAb => exact g_hcy_to_lch_ab
  case lchUv => exact g_hcy_to_lch_uv

theorem computes_xyz (t : ColorType) (ht : t ≠ .undefined) (hst : .xyz ≠ t) : Computes (direct .xyz t) (Val.conv .xyz t) (effect .xyz t) := by
  cases t
  case undefined => exact absurd rfl ht
  case xyz => exact absurd rfl hst
  case rgbTrue => exact c_xyz_to_rgb_true
  case rgbDeep => exact c_xyz_to_rgb_deep
  case greyTrue => exact c_xyz_to_grey_true
  case greyDeep => exact c_xyz_to_grey_deep
  case cmyk => exact c_xyz_to_cmyk
  case hsi => exact c_xyz_to_hsi
  case hsv => exact c_xyz_to_hsv
  case hsl => exact c_xyz_to_hsl
  case hcy => exact c_xyz_to_hcy
  case xyy => exact c_xyz_to_xyy
  case cieluv => exact c_xyz_to_cieluv
  case lab => exact c_xyz_to_lab
  case lchAb => exact c_xyz_to_lch_ab
  case lchUv => exact c_xyz_to_lch_uv

theorem good_xyz (t : ColorType) (ht : t ≠ .undefined) (hst : .xyz ≠ t) : Good .xyz t (Val.conv .xyz t) := by
  cases t
  case undefined => exact absurd rfl ht
  case xyz => exact absurd rfl hst
  case rgbTrue => exact g_xyz_to_rgb_true
  case rgbDeep => exact g_xyz_to_rgb_deep
  case greyTrue => exact g_xyz_to_grey_true
  case greyDeep => exact g_xyz_to_grey_deep
  case cmyk => exact g_xyz_to_cmyk
  case hsi => exact g_xyz_to_hsi
  case hsv => exact g_xyz_to_hsv
  case hsl => exact g_xyz_to_hsl
  case hcy => exact g_xyz_to_hcy
  case xyy => exact g_xyz_to_xyy
  case cieluv => exact g_xyz_to_cieluv
  case lab => exact g_xyz_to_lab
  case lchAb => exact g_xyz_to_lch_ab
  case lchUv => exact g_xyz_to_lch_uv

theorem computes_xyy (t : ColorType) (ht : t ≠ .undefined) (hst : .xyy ≠ t) : Computes (direct .xyy t) (Val.conv .xyy t) (effect .xyy t) := by
  cases t
  case undefined => exact absurd rfl ht
  case xyy => exact absurd rfl hst
  case rgbTrue => exact c_xyy_to_rgb_true
  case rgbDeep => exact c_xyy_to_rgb_deep
  case greyTrue => exact c_xyy_to_grey_true
  case greyDeep => exact c_xyy_to_grey_deep
  case cmyk => exact c_xyy_to_cmyk
  case hsi => exact c_xyy_to_hsi
  case hsv => exact c_xyy_to_hsv
  case hsl => exact c_xyy_to_hsl
  case hcy => exact c_xyy_to_hcy
  case xyz => exact c_xyy_to_xyz
  case cieluv => exact c_xyy_to_cieluv
  case lab => exact c_xyy_to_lab
  case lchAb => exact c_xyy_to_lch_ab
  case lchUv => exact c_xyy_to_lch_uv

theorem good_xyy (t : ColorType) (ht : t ≠ .undefined) (hst : .xyy ≠ t) : Good .xyy t (Val.conv .xyy t) := by
  cases t
  case undefined => exact absurd rfl ht
  case xyy => exact absurd rfl hst
  case rgbTrue => exact g_xyy_to_rgb_true
  case rgbDeep => exact g_xyy_to_rgb_deep
  case greyTrue => exact g_xyy_to_grey_true
  case greyDeep => exact g_xyy_to_grey_deep
  case cmyk => exact g_xyy_to_cmyk
  case hsi => exact g_xyy_to_hsi
  case hsv => exact g_xyy_to_hsv
  case hsl => exact g_xyy_to_hsl
  case hcy => exact g_xyy_to_hcy
  case xyz => exact g_xyy_to_xyz
  case cieluv => exact g_xyy_to_cieluv
  case lab => exact g_xyy_to_lab
  case lchAb => exact g_xyy_to_lch_ab
  case lchUv => exact g_xyy_to_lch_uv

theorem computes_cieluv (t : ColorType) (ht : t ≠ .undefined) (hst : .cieluv ≠ t) : Computes (direct .cieluv t) (Val.conv .cieluv t) (effect .cieluv t) := by
  cases t
  case undefined => exact absurd rfl ht
  case cieluv => exact absurd rfl hst
  case rgbTrue => exact c_cieluv_to_rgb_true
  case rgbDeep => exact c_cieluv_to_rgb_deep
  case greyTrue => exact c_cieluv_to_grey_true
  case greyDeep => exact c_cieluv_to_grey_deep
  case cmyk => exact c_cieluv_to_cmyk
  case hsi => exact c_cieluv_to_hsi
  case hsv => exact c_cieluv_to_hsv
  case hsl => exact c_cieluv_to_hsl
  case hcy => exact c_cieluv_to_hcy
  case xyz => exact c_cieluv_to_xyz
  case xyy => exact c_cieluv_to_xyy
  case lab => exact c_cieluv_to_lab
  case lchAb => exact c_cieluv_to_lch_ab
  case lchUv => exact c_cieluv_to_lch_uv

theorem good_cieluv (t : ColorType) (ht : t ≠ .undefined) (hst : .cieluv ≠ t) : Good .cieluv t (Val.conv .cieluv t) := by
  cases t
  case undefined => exact absurd rfl ht
  case cieluv => exact absurd rfl hst
  case rgbTrue => exact g_cieluv_to_rgb_true
  case rgbDeep => exact g_cieluv_to_rgb_deep
  case greyTrue => exact g_cieluv_to_grey_true
  case greyDeep => exact g_cieluv_to_grey_deep
  case cmyk => exact g_cieluv_to_cmyk
  case hsi => exact g_cieluv_to_hsi
  case hsv => exact g_cieluv_to_hsv
  case hsl => exact g_cieluv_to_hsl
  case hcy => exact g_cieluv_to_hcy
  case xyz => exact g_cieluv_to_xyz
  case xyy => exact g_cieluv_to_xyy
  case lab => exact g_cieluv_to_lab
  case lchAb => exact g_cieluv_to_lch_ab
  case lchUv => exact g_cieluv_to_lch_uv

theorem computes_lab (t : ColorType) (ht : t ≠ .undefined) (hst : .lab ≠ t) : Computes (direct .lab t) (Val.conv .lab t) (effect .lab t) := by
  cases t
  case undefined => exact absurd rfl ht
  case lab => exact absurd rfl hst
  case rgbTrue => exact c_lab_to_rgb_true
  case rgbDeep => exact c_lab_to_rgb_deep
  case greyTrue => exact c_lab_to_grey_true
  case greyDeep => exact c_lab_to_grey_deep
  case cmyk => exact c_lab_to_cmyk
  case hsi => exact c_lab_to_hsi
  case hsv => exact c_lab_to_hsv
  case hsl => exact c_lab_to_hsl
  case hcy => exact c_lab_to_hcy
  case xyz => exact c_lab_to_xyz
  case xyy => exact c_lab_to_xyy
  case cieluv => exact c_lab_to_cieluv
  case lchAb => exact c_lab_to_lch_ab
  case lchUv => exact c_lab_to_lch_uv

theorem good_lab (t : ColorType) (ht : t ≠ .undefined) (hst : .lab ≠ t) : Good .lab t (Val.conv .lab t) := by
  cases t
  case undefined => exact absurd rfl ht
  case lab => exact absurd rfl hst
  case rgbTrue => exact g_lab_to_rgb_true
  case rgbDeep => exact g_lab_to_rgb_deep
  case greyTrue => exact g_lab_to_grey_true
  case greyDeep => exact g_lab_to_grey_deep
  case cmyk => exact g_lab_to_cmyk
  case hsi => exact g_lab_to_hsi
  case hsv => exact g_lab_to_hsv
  case hsl => exact g_lab_to_hsl
  case hcy => exact g_lab_to_hcy
  case xyz => exact g_lab_to_xyz
  case xyy => exact g_lab_to_xyy
  case cieluv => exact g_lab_to_cieluv
  case lchAb => exact g_lab_to_lch_ab
  case lchUv => exact g_lab_to_lch_uv

theorem computes_lch_ab (t : ColorType) (ht : t ≠ .undefined) (hst : .lchAb ≠ t) : Computes (direct .lchAb t) (Val.conv .lchAb t) (effect .lchAb t) := by
  cases t
  case undefined => exact absurd rfl ht
  case lchAb => exact absurd rfl hst
  case rgbTrue => exact c_lch_ab_to_rgb_true
  case rgbDeep => exact c_lch_ab_to_rgb_deep
  case greyTrue => exact c_lch_ab_to_grey_true
  case greyDeep => exact c_lch_ab_to_grey_deep
  case cmyk => exact c_lch_ab_to_cmyk
  case hsi => exact c_lch_ab_to_hsi
  case hsv => exact c_lch_ab_to_hsv
  case hsl => exact c_lch_ab_to_hsl
  case hcy => exact c_lch_ab_to_hcy
  case xyz => exact c_lch_ab_to_xyz
  case xyy => exact c_lch_ab_to_xyy
  case cieluv => exact c_lch_ab_to_cieluv
  case lab => exact c_lch_ab_to_lab
  case lchUv => exact c_lch_ab_to_lch_uv

theorem good_lch_ab (t : ColorType) (ht : t ≠ .undefined) (hst : .lchAb ≠ t) : Good .lchAb t (Val.conv .lchAb t) := by
  cases t
  case undefined => exact absurd rfl ht
  case lchAb => exact absurd rfl hst
  case rgbTrue => exact g_lch_ab_to_rgb_true
  case rgbDeep => exact g_lch_ab_to_rgb_deep
  case greyTrue => exact g_lch_ab_to_grey_true
  case greyDeep => exact g_lch_ab_to_grey_deep
  case cmyk => exact g_lch_ab_to_cmyk
  case hsi => exact g_lch_ab_to_hsi
  case hsv => exact g_lch_ab_to_hsv
  case hsl => exact g_lch_ab_to_hsl
  case hcy => exact g_lch_ab_to_hcy
  case xyz => exact g_lch_ab_to_xyz
  case xyy => exact g_lch_ab_to_xyy
  case cieluv => exact g_lch_ab_to_cieluv
  case lab => exact g_lch_ab_to_lab
  case lchUv => exact g_lch_ab_to_lch_uv

theorem computes_lch_uv (t : ColorType) (ht : t ≠ .undefined) (hst : .lchUv ≠ t) : Computes (direct .lchUv t) (Val.conv .lchUv t) (effect .lchUv t) := by
  cases t
  case undefined => exact absurd rfl ht
  case lchUv => exact absurd rfl hst
  case rgbTrue => exact c_lch_uv_to_rgb_true
  case rgbDeep => exact c_lch_uv_to_rgb_deep
  case greyTrue => exact c_lch_uv_to_grey_true
  case greyDeep => exact c_lch_uv_to_grey_deep
  case cmyk => exact c_lch_uv_to_cmyk
  case hsi => exact c_lch_uv_to_hsi
  case hsv => exact c_lch_uv_to_hsv
  case hsl => exact c_lch_uv_to_hsl
  case hcy => exact c_lch_uv_to_hcy
  case xyz => exact c_lch_uv_to_xyz
  case xyy => exact c_lch_uv_to_xyy
  case cieluv => exact c_lch_uv_to_cieluv
  case lab => exact c_lch_uv_to_lab
  case lchAb => exact c_lch_uv_to_lch_ab

theorem good_lch_uv (t : ColorType) (ht : t ≠ .undefined) (hst : .lchUv ≠ t) : Good .lchUv t (Val.conv .lchUv t) := by
  cases t
  case undefined => exact absurd rfl ht
  case lchUv => exact absurd rfl hst
  case rgbTrue => exact g_lch_uv_to_rgb_true
  case rgbDeep => exact g_lch_uv_to_rgb_deep
  case greyTrue => exact g_lch_uv_to_grey_true
  case greyDeep => exact g_lch_uv_to_grey_deep
  case cmyk => exact g_lch_uv_to_cmyk
  case hsi => exact g_lch_uv_to_hsi
  case hsv => exact g_lch_uv_to_hsv
  case hsl => exact g_lch_uv_to_hsl
  case hcy => exact g_lch_uv_to_hcy
  case xyz => exact g_lch_uv_to_xyz
  case xyy => exact g_lch_uv_to_xyy
  case cieluv => exact g_lch_uv_to_cieluv
  case lab => exact g_lch_uv_to_lab
  case lchAb => exact g_lch_uv_to_lch_ab

theorem computes_direct (s t : ColorType) (hs : s ≠ .undefined) (ht : t ≠ .undefined) (hst : s ≠ t) :
    Computes (direct s t) (Val.conv s t) (effect s t) := by
  cases s
  case undefined => exact absurd rfl hs
  case rgbTrue => exact computes_rgb_true t ht hst
  case rgbDeep => exact computes_rgb_deep t ht hst
  case greyTrue => exact computes_grey_true t ht hst
  case greyDeep => exact computes_grey_deep t ht hst
  case cmyk => exact computes_cmyk t ht hst
  case hsi => exact computes_hsi t ht hst
  case hsv => exact computes_hsv t ht hst
  case hsl => exact computes_hsl t ht hst
  case hcy => exact computes_hcy t ht hst
  case xyz => exact computes_xyz t ht hst
  case xyy => exact computes_xyy t ht hst
  case cieluv => exact computes_cieluv t ht hst
  case lab => exact computes_lab t ht hst
  case lchAb => exact computes_lch_ab t ht hst
  case lchUv => exact computes_lch_uv t ht hst

theorem good_direct (s t : ColorType) (hs : s ≠ .undefined) (ht : t ≠ .undefined) (hst : s ≠ t) : Good s t (Val.conv s t) := by
  cases s
  case undefined => exact absurd rfl hs
  case rgbTrue => exact good_rgb_true t ht hst
  case rgbDeep => exact good_rgb_deep t ht hst
  case greyTrue => exact good_grey_true t ht hst
  case greyDeep => exact good_grey_deep t ht hst
  case cmyk => exact good_cmyk t ht hst
  case hsi => exact good_hsi t ht hst
  case hsv => exact good_hsv t ht hst
  case hsl => exact good_hsl t ht hst
  case hcy => exact good_hcy t ht hst
  case xyz => exact good_xyz t ht hst
  case xyy => exact good_xyy t ht hst
  case cieluv => exact good_cieluv t ht hst
  case lab => exact good_lab t ht hst
  case lchAb => exact good_lch_ab t ht hst
  case lchUv => exact good_lch_uv t ht hst

theorem convertTo_eq (p : Ptr) (t : ColorType) (h : t ≠ .lchAb ∧ t ≠ .lchUv ∧ t ≠ .undefined) : Converter.convertTo p t = dispatcher t p := by
  cases t
  case lchAb => exact absurd rfl h.1
  case lchUv => exact absurd rfl h.2.1
  case undefined => exact absurd rfl h.2.2
  all_goals rfl

/-- Complete description of `to_<t>` on an object of class `s ≠ t`. -/
theorem dispatcher_spec (s t : ColorType) (hs : s ≠ .undefined) (ht : t ≠ .undefined) (hst : s ≠ t) (h : Heap) (i : Nat) (c : Color)
    (hc : h.colors[i]? = some c) (hcol : IsColor s c) :
    match Val.conv s t h.world c with
    | ok c' => ∃ ext, dispatcher t (some i) h =
        (ok (some (h.colors.length + ext.length)), ⟨h.world, h.colors.set i (effect s t h.world c) ++ ext ++ [c']⟩)
    | .throw e => ∃ ext, dispatcher t (some i) h = (.throw e, ⟨h.world, ext⟩)
    | .ub => ∃ h', dispatcher t (some i) h = (.ub, h') := by
  rw [dispatch_eq s t hs ht h i c hc hcol.cls hcol.ctype]
  exact computes_direct s t hs ht hst h i c hc

theorem dispatcher_same (t : ColorType) (ht : t ≠ .undefined) (h : Heap) (i : Nat) (c : Color) (hc : h.colors[i]? = some c) (hcl : c.cls = t)
    (hct : c.ctype = t) : dispatcher t (some i) h = (ok (some i), h) := by
  rw [dispatch_eq t t ht ht h i c hc hcl hct]
  cases t
  case undefined => exact absurd rfl ht
  all_goals rfl

theorem dispatcher_undefined (t : ColorType) (h : Heap) (i : Nat) (c : Color) (hc : h.colors[i]? = some c) (hct : c.ctype = .undefined) :
    dispatcher t (some i) h = (ok none, h) := by
  cases t
  case undefined => rfl
  case rgbTrue =>
    show Converter.to_rgb_true (some i) h = _
    unfold Converter.to_rgb_true
    rw [Prog.bind_def]
    simp only [load, hc]
    rw [hct]
    rfl
  case rgbDeep =>
    show Converter.to_rgb_deep (some i) h = _
    unfold Converter.to_rgb_deep
    rw [Prog.bind_def]
    simp only [load, hc]
    rw [hct]
    rfl
  case greyTrue =>
    show Converter.to_grey_true (some i) h = _
    unfold Converter.to_grey_true
    rw [Prog.bind_def]
    simp only [load, hc]
    rw [hct]
    rfl
  case greyDeep =>
    show Converter.to_grey_deep (some i) h = _
    unfold Converter.to_grey_deep
    rw [Prog.bind_def]
    simp only [load, hc]
    rw [hct]
    rfl
  case cmyk =>
    show Converter.to_cmyk (some i) h = _
    unfold Converter.to_cmyk
    rw [Prog.bind_def]
    simp only [load, hc]
    rw [hct]
    rfl
  case hsi =>
    show Converter.to_hsi (some i) h = _
    unfold Converter.to_hsi
    rw [Prog.bind_def]
    simp only [load, hc]
    rw [hct]
    rfl
  case hsv =>
    show Converter.to_hsv (some i) h = _
    unfold Converter.to_hsv
    rw [Prog.bind_def]
    simp only [load, hc]
    rw [hct]
    rfl
  case hsl =>
    show Converter.to_hsl (some i) h = _
    unfold Converter.to_hsl
    rw [Prog.bind_def]
    simp only [load, hc]
    rw [hct]
    rfl
  case hcy =>
    show Converter.to_hcy (some i) h = _
    unfold Converter.to_hcy
    rw [Prog.bind_def]
    simp only [load, hc]
    rw [hct]
    rfl
  case xyz =>
    show Converter.to_xyz (some i) h = _
    unfold Converter.to_xyz
    rw [Prog.bind_def]
    simp only [load, hc]
    rw [hct]
    rfl
  case xyy =>
    show Converter.to_xyy (some i) h = _
    unfold Converter.to_xyy
    rw [Prog.bind_def]
    simp only [load, hc]
    rw [hct]
    rfl
  case cieluv =>
    show Converter.to_cieluv (some i) h = _
    unfold Converter.to_cieluv
    rw [Prog.bind_def]
    simp only [load, hc]
    rw [hct]
    rfl
  case lab =>
    show Converter.to_lab (some i) h = _
    unfold Converter.to_lab
    rw [Prog.bind_def]
    simp only [load, hc]
    rw [hct]
    rfl
  case lchAb =>
    show Converter.to_lch_ab (some i) h = _
    unfold Converter.to_lch_ab
    rw [Prog.bind_def]
    simp only [load, hc]
    rw [hct]
    rfl
  case lchUv =>
    show Converter.to_lch_uv (some i) h = _
    unfold Converter.to_lch_uv
    rw [Prog.bind_def]
    simp only [load, hc]
    rw [hct]
    rfl

end Conv
