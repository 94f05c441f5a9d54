import Verif.Grow

/-! Generated by a script: the rules of `Verif/Grow.lean` applied to every function of `Verif/Converter.lean`. -/

open Outcome Fl Prog

namespace Grow
variable [FloatModel]

instance m_rgb_true_to_rgb_deep : Makes Converter.rgb_true_to_rgb_deep 1 := makes_map _

instance m_rgb_true_to_grey_true : Makes Converter.rgb_true_to_grey_true 1 := makes_map _

instance m_rgb_true_to_grey_deep : Makes Converter.rgb_true_to_grey_deep 2 := ⟨fun _ => (adds_call _).bind (m := 1) fun _ => (adds_load _).skip fun _ => (adds_load _).skip fun _ => (adds_lift _).skip fun _ => adds_alloc _⟩

instance m_rgb_deep_to_rgb_true : Makes Converter.rgb_deep_to_rgb_true 1 := makes_map _

instance m_rgb_deep_to_grey_deep : Makes Converter.rgb_deep_to_grey_deep 1 := makes_map _

instance m_rgb_deep_to_cmyk : Makes Converter.rgb_deep_to_cmyk 1 := makes_map _

instance m_rgb_deep_to_hsi : Makes Converter.rgb_deep_to_hsi 1 := makes_map _

instance m_rgb_deep_to_hsv : Makes Converter.rgb_deep_to_hsv 1 := makes_map _

instance m_rgb_deep_to_hsl : Makes Converter.rgb_deep_to_hsl 1 := makes_map _

instance m_rgb_deep_to_hcy : Makes Converter.rgb_deep_to_hcy 1 := makes_map _

instance m_rgb_deep_to_xyz : Makes Converter.rgb_deep_to_xyz 1 := ⟨fun _ => (adds_load _).skip fun _ => adds_world.skip fun _ => (adds_lift _).skip fun _ => (adds_store _ _).skip fun _ => (adds_lift _).skip fun _ => adds_alloc _⟩

instance m_grey_true_to_rgb_true : Makes Converter.grey_true_to_rgb_true 1 := makes_map _

instance m_grey_true_to_rgb_deep : Makes Converter.grey_true_to_rgb_deep 1 := makes_map _

instance m_grey_true_to_grey_deep : Makes Converter.grey_true_to_grey_deep 1 := makes_map _

instance m_grey_deep_to_rgb_true : Makes Converter.grey_deep_to_rgb_true 1 := makes_map _

instance m_grey_deep_to_rgb_deep : Makes Converter.grey_deep_to_rgb_deep 1 := makes_map _

instance m_grey_deep_to_grey_true : Makes Converter.grey_deep_to_grey_true 1 := makes_map _

instance m_cmyk_to_rgb_deep : Makes Converter.cmyk_to_rgb_deep 1 := makes_map _

instance m_hsi_to_rgb_deep : Makes Converter.hsi_to_rgb_deep 1 := makes_map _

instance m_hsv_to_rgb_deep : Makes Converter.hsv_to_rgb_deep 1 := makes_map _

instance m_hsv_to_hsl : Makes Converter.hsv_to_hsl 1 := makes_map _

instance m_hsl_to_rgb_deep : Makes Converter.hsl_to_rgb_deep 1 := makes_map _

instance m_hsl_to_hsv : Makes Converter.hsl_to_hsv 1 := makes_map _

instance m_hcy_to_rgb_deep : Makes Converter.hcy_to_rgb_deep 1 := makes_map _

instance m_xyz_to_rgb_deep : Makes Converter.xyz_to_rgb_deep 1 := makes_map _

instance m_xyz_to_xyy : Makes Converter.xyz_to_xyy 1 := makes_map _

instance m_xyz_to_cieluv : Makes Converter.xyz_to_cieluv 1 := makes_map _

instance m_xyz_to_lab : Makes Converter.xyz_to_lab 1 := makes_map _

instance m_xyy_to_xyz : Makes Converter.xyy_to_xyz 1 := makes_map _

instance m_cieluv_to_xyz : Makes Converter.cieluv_to_xyz 1 := makes_map _

instance m_cieluv_to_lch_uv : Makes Converter.cieluv_to_lch_uv 1 := makes_map _

instance m_lab_to_xyz : Makes Converter.lab_to_xyz 1 := makes_map _

instance m_lab_to_lch_ab : Makes Converter.lab_to_lch_ab 1 := makes_map _

instance m_lch_ab_to_lab : Makes Converter.lch_ab_to_lab 1 := makes_map _

instance m_lch_uv_to_cieluv : Makes Converter.lch_uv_to_cieluv 1 := makes_map _

instance m_rgb_true_to_cmyk : Makes Converter.rgb_true_to_cmyk 2 := makes_comp

instance m_rgb_true_to_hsi : Makes Converter.rgb_true_to_hsi 2 := makes_comp

instance m_rgb_true_to_hsv : Makes Converter.rgb_true_to_hsv 2 := makes_comp

instance m_rgb_true_to_hsl : Makes Converter.rgb_true_to_hsl 2 := makes_comp

instance m_rgb_true_to_hcy : Makes Converter.rgb_true_to_hcy 2 := makes_comp

instance m_rgb_true_to_xyz : Makes Converter.rgb_true_to_xyz 2 := makes_comp

instance m_rgb_true_to_xyy : Makes Converter.rgb_true_to_xyy 3 := makes_comp

instance m_rgb_true_to_cieluv : Makes Converter.rgb_true_to_cieluv 3 := makes_comp

instance m_rgb_deep_to_lab : Makes Converter.rgb_deep_to_lab 2 := makes_comp

instance m_rgb_true_to_lab : Makes Converter.rgb_true_to_lab 3 := makes_comp

instance m_rgb_true_to_lch_ab : Makes Converter.rgb_true_to_lch_ab 4 := makes_comp

instance m_rgb_true_to_lch_uv : Makes Converter.rgb_true_to_lch_uv 4 := makes_comp

instance m_rgb_deep_to_grey_true : Makes Converter.rgb_deep_to_grey_true 2 := makes_comp

instance m_rgb_deep_to_xyy : Makes Converter.rgb_deep_to_xyy 2 := makes_comp

instance m_rgb_deep_to_cieluv : Makes Converter.rgb_deep_to_cieluv 2 := makes_comp

instance m_rgb_deep_to_lch_ab : Makes Converter.rgb_deep_to_lch_ab 3 := makes_comp

instance m_rgb_deep_to_lch_uv : Makes Converter.rgb_deep_to_lch_uv 3 := makes_comp

instance m_grey_true_to_cmyk : Makes Converter.grey_true_to_cmyk 2 := makes_comp

instance m_grey_true_to_hsi : Makes Converter.grey_true_to_hsi 2 := makes_comp

instance m_grey_true_to_hsv : Makes Converter.grey_true_to_hsv 2 := makes_comp

instance m_grey_true_to_hsl : Makes Converter.grey_true_to_hsl 2 := makes_comp

instance m_grey_true_to_hcy : Makes Converter.grey_true_to_hcy 2 := makes_comp

instance m_grey_true_to_xyz : Makes Converter.grey_true_to_xyz 2 := makes_comp

instance m_grey_true_to_xyy : Makes Converter.grey_true_to_xyy 3 := makes_comp

instance m_grey_true_to_cieluv : Makes Converter.grey_true_to_cieluv 3 := makes_comp

instance m_grey_true_to_lab : Makes Converter.grey_true_to_lab 3 := makes_comp

instance m_grey_true_to_lch_ab : Makes Converter.grey_true_to_lch_ab 4 := makes_comp

instance m_grey_true_to_lch_uv : Makes Converter.grey_true_to_lch_uv 4 := makes_comp

instance m_grey_deep_to_cmyk : Makes Converter.grey_deep_to_cmyk 2 := makes_comp

instance m_grey_deep_to_hsi : Makes Converter.grey_deep_to_hsi 2 := makes_comp

instance m_grey_deep_to_hsv : Makes Converter.grey_deep_to_hsv 2 := makes_comp

instance m_grey_deep_to_hsl : Makes Converter.grey_deep_to_hsl 2 := makes_comp

instance m_grey_deep_to_hcy : Makes Converter.grey_deep_to_hcy 2 := makes_comp

instance m_grey_deep_to_xyz : Makes Converter.grey_deep_to_xyz 2 := makes_comp

instance m_grey_deep_to_xyy : Makes Converter.grey_deep_to_xyy 3 := makes_comp

instance m_grey_deep_to_cieluv : Makes Converter.grey_deep_to_cieluv 3 := makes_comp

instance m_grey_deep_to_lab : Makes Converter.grey_deep_to_lab 3 := makes_comp

instance m_grey_deep_to_lch_ab : Makes Converter.grey_deep_to_lch_ab 4 := makes_comp

instance m_grey_deep_to_lch_uv : Makes Converter.grey_deep_to_lch_uv 4 := makes_comp

instance m_cmyk_to_rgb_true : Makes Converter.cmyk_to_rgb_true 2 := makes_comp

instance m_cmyk_to_grey_true : Makes Converter.cmyk_to_grey_true 3 := makes_comp

instance m_cmyk_to_grey_deep : Makes Converter.cmyk_to_grey_deep 2 := makes_comp

instance m_cmyk_to_hsi : Makes Converter.cmyk_to_hsi 2 := makes_comp

instance m_cmyk_to_hsv : Makes Converter.cmyk_to_hsv 2 := makes_comp

instance m_cmyk_to_hsl : Makes Converter.cmyk_to_hsl 2 := makes_comp

instance m_cmyk_to_hcy : Makes Converter.cmyk_to_hcy 2 := makes_comp

instance m_cmyk_to_xyz : Makes Converter.cmyk_to_xyz 2 := makes_comp

instance m_cmyk_to_xyy : Makes Converter.cmyk_to_xyy 3 := makes_comp

instance m_cmyk_to_cieluv : Makes Converter.cmyk_to_cieluv 3 := makes_comp

instance m_cmyk_to_lab : Makes Converter.cmyk_to_lab 3 := makes_comp

instance m_cmyk_to_lch_ab : Makes Converter.cmyk_to_lch_ab 4 := makes_comp

instance m_cmyk_to_lch_uv : Makes Converter.cmyk_to_lch_uv 4 := makes_comp

instance m_hsi_to_rgb_true : Makes Converter.hsi_to_rgb_true 2 := makes_comp

instance m_hsi_to_grey_true : Makes Converter.hsi_to_grey_true 3 := makes_comp

instance m_hsi_to_grey_deep : Makes Converter.hsi_to_grey_deep 2 := makes_comp

instance m_hsi_to_cmyk : Makes Converter.hsi_to_cmyk 2 := makes_comp

instance m_hsi_to_hsv : Makes Converter.hsi_to_hsv 2 := makes_comp

instance m_hsi_to_hsl : Makes Converter.hsi_to_hsl 2 := makes_comp

instance m_hsi_to_hcy : Makes Converter.hsi_to_hcy 2 := makes_comp

instance m_hsi_to_xyz : Makes Converter.hsi_to_xyz 2 := makes_comp

instance m_hsi_to_xyy : Makes Converter.hsi_to_xyy 3 := makes_comp

instance m_hsi_to_cieluv : Makes Converter.hsi_to_cieluv 3 := makes_comp

instance m_hsi_to_lab : Makes Converter.hsi_to_lab 3 := makes_comp

instance m_hsi_to_lch_ab : Makes Converter.hsi_to_lch_ab 4 := makes_comp

instance m_hsi_to_lch_uv : Makes Converter.hsi_to_lch_uv 4 := makes_comp

instance m_hsv_to_rgb_true : Makes Converter.hsv_to_rgb_true 2 := makes_comp

instance m_hsv_to_grey_true : Makes Converter.hsv_to_grey_true 3 := makes_comp

instance m_hsv_to_grey_deep : Makes Converter.hsv_to_grey_deep 2 := makes_comp

instance m_hsv_to_cmyk : Makes Converter.hsv_to_cmyk 2 := makes_comp

instance m_hsv_to_hsi : Makes Converter.hsv_to_hsi 2 := makes_comp

instance m_hsv_to_hcy : Makes Converter.hsv_to_hcy 2 := makes_comp

instance m_hsv_to_xyz : Makes Converter.hsv_to_xyz 2 := makes_comp

instance m_hsv_to_xyy : Makes Converter.hsv_to_xyy 3 := makes_comp

instance m_hsv_to_cieluv : Makes Converter.hsv_to_cieluv 3 := makes_comp

instance m_hsv_to_lab : Makes Converter.hsv_to_lab 3 := makes_comp

instance m_hsv_to_lch_ab : Makes Converter.hsv_to_lch_ab 4 := makes_comp

instance m_hsv_to_lch_uv : Makes Converter.hsv_to_lch_uv 4 := makes_comp

instance m_hsl_to_rgb_true : Makes Converter.hsl_to_rgb_true 2 := makes_comp

instance m_hsl_to_grey_true : Makes Converter.hsl_to_grey_true 3 := makes_comp

instance m_hsl_to_grey_deep : Makes Converter.hsl_to_grey_deep 2 := makes_comp

instance m_hsl_to_cmyk : Makes Converter.hsl_to_cmyk 2 := makes_comp

instance m_hsl_to_hsi : Makes Converter.hsl_to_hsi 2 := makes_comp

instance m_hsl_to_hcy : Makes Converter.hsl_to_hcy 2 := makes_comp

instance m_hsl_to_xyz : Makes Converter.hsl_to_xyz 2 := makes_comp

instance m_hsl_to_xyy : Makes Converter.hsl_to_xyy 3 := makes_comp

instance m_hsl_to_cieluv : Makes Converter.hsl_to_cieluv 3 := makes_comp

instance m_hsl_to_lab : Makes Converter.hsl_to_lab 3 := makes_comp

instance m_hsl_to_lch_ab : Makes Converter.hsl_to_lch_ab 4 := makes_comp

instance m_hsl_to_lch_uv : Makes Converter.hsl_to_lch_uv 4 := makes_comp

instance m_hcy_to_rgb_true : Makes Converter.hcy_to_rgb_true 2 := makes_comp

instance m_hcy_to_grey_true : Makes Converter.hcy_to_grey_true 3 := makes_comp

instance m_hcy_to_grey_deep : Makes Converter.hcy_to_grey_deep 2 := makes_comp

instance m_hcy_to_cmyk : Makes Converter.hcy_to_cmyk 2 := makes_comp

instance m_hcy_to_hsi : Makes Converter.hcy_to_hsi 2 := makes_comp

instance m_hcy_to_hsv : Makes Converter.hcy_to_hsv 2 := makes_comp

instance m_hcy_to_hsl : Makes Converter.hcy_to_hsl 2 := makes_comp

instance m_hcy_to_xyz : Makes Converter.hcy_to_xyz 2 := makes_comp

instance m_hcy_to_xyy : Makes Converter.hcy_to_xyy 3 := makes_comp

instance m_hcy_to_cieluv : Makes Converter.hcy_to_cieluv 3 := makes_comp

instance m_hcy_to_lab : Makes Converter.hcy_to_lab 3 := makes_comp

instance m_hcy_to_lch_ab : Makes Converter.hcy_to_lch_ab 4 := makes_comp

instance m_hcy_to_lch_uv : Makes Converter.hcy_to_lch_uv 4 := makes_comp

instance m_xyz_to_rgb_true : Makes Converter.xyz_to_rgb_true 2 := makes_comp

instance m_xyz_to_grey_true : Makes Converter.xyz_to_grey_true 3 := makes_comp

instance m_xyz_to_grey_deep : Makes Converter.xyz_to_grey_deep 2 := makes_comp

instance m_xyz_to_cmyk : Makes Converter.xyz_to_cmyk 2 := makes_comp

instance m_xyz_to_hsi : Makes Converter.xyz_to_hsi 2 := makes_comp

instance m_xyz_to_hsv : Makes Converter.xyz_to_hsv 2 := makes_comp

instance m_xyz_to_hsl : Makes Converter.xyz_to_hsl 2 := makes_comp

instance m_xyz_to_hcy : Makes Converter.xyz_to_hcy 2 := makes_comp

instance m_xyz_to_lch_ab : Makes Converter.xyz_to_lch_ab 2 := makes_comp

instance m_xyz_to_lch_uv : Makes Converter.xyz_to_lch_uv 2 := makes_comp

instance m_xyy_to_rgb_true : Makes Converter.xyy_to_rgb_true 3 := makes_comp

instance m_xyy_to_rgb_deep : Makes Converter.xyy_to_rgb_deep 2 := makes_comp

instance m_xyy_to_grey_true : Makes Converter.xyy_to_grey_true 4 := makes_comp

instance m_xyy_to_grey_deep : Makes Converter.xyy_to_grey_deep 3 := makes_comp

instance m_xyy_to_cmyk : Makes Converter.xyy_to_cmyk 3 := makes_comp

instance m_xyy_to_hsi : Makes Converter.xyy_to_hsi 3 := makes_comp

instance m_xyy_to_hsv : Makes Converter.xyy_to_hsv 3 := makes_comp

instance m_xyy_to_hsl : Makes Converter.xyy_to_hsl 3 := makes_comp

instance m_xyy_to_hcy : Makes Converter.xyy_to_hcy 3 := makes_comp

instance m_xyy_to_cieluv : Makes Converter.xyy_to_cieluv 2 := makes_comp

instance m_xyy_to_lab : Makes Converter.xyy_to_lab 2 := makes_comp

instance m_xyy_to_lch_ab : Makes Converter.xyy_to_lch_ab 3 := makes_comp

instance m_xyy_to_lch_uv : Makes Converter.xyy_to_lch_uv 3 := makes_comp

instance m_cieluv_to_rgb_true : Makes Converter.cieluv_to_rgb_true 3 := makes_comp

instance m_cieluv_to_rgb_deep : Makes Converter.cieluv_to_rgb_deep 2 := makes_comp

instance m_cieluv_to_grey_true : Makes Converter.cieluv_to_grey_true 4 := makes_comp

instance m_cieluv_to_grey_deep : Makes Converter.cieluv_to_grey_deep 3 := makes_comp

instance m_cieluv_to_cmyk : Makes Converter.cieluv_to_cmyk 3 := makes_comp

instance m_cieluv_to_hsi : Makes Converter.cieluv_to_hsi 3 := makes_comp

instance m_cieluv_to_hsv : Makes Converter.cieluv_to_hsv 3 := makes_comp

instance m_cieluv_to_hsl : Makes Converter.cieluv_to_hsl 3 := makes_comp

instance m_cieluv_to_hcy : Makes Converter.cieluv_to_hcy 3 := makes_comp

instance m_cieluv_to_xyy : Makes Converter.cieluv_to_xyy 2 := makes_comp

instance m_cieluv_to_lab : Makes Converter.cieluv_to_lab 2 := makes_comp

instance m_cieluv_to_lch_ab : Makes Converter.cieluv_to_lch_ab 3 := makes_comp

instance m_lab_to_rgb_true : Makes Converter.lab_to_rgb_true 3 := makes_comp

instance m_lab_to_rgb_deep : Makes Converter.lab_to_rgb_deep 2 := makes_comp

instance m_lab_to_grey_true : Makes Converter.lab_to_grey_true 4 := makes_comp

instance m_lab_to_grey_deep : Makes Converter.lab_to_grey_deep 3 := makes_comp

instance m_lab_to_cmyk : Makes Converter.lab_to_cmyk 3 := makes_comp

instance m_lab_to_hsi : Makes Converter.lab_to_hsi 3 := makes_comp

instance m_lab_to_hsv : Makes Converter.lab_to_hsv 3 := makes_comp

instance m_lab_to_hsl : Makes Converter.lab_to_hsl 3 := makes_comp

instance m_lab_to_hcy : Makes Converter.lab_to_hcy 3 := makes_comp

instance m_lab_to_xyy : Makes Converter.lab_to_xyy 2 := makes_comp

instance m_lab_to_cieluv : Makes Converter.lab_to_cieluv 2 := makes_comp

instance m_lab_to_lch_uv : Makes Converter.lab_to_lch_uv 3 := makes_comp

instance m_lch_ab_to_rgb_true : Makes Converter.lch_ab_to_rgb_true 4 := makes_comp

instance m_lch_ab_to_rgb_deep : Makes Converter.lch_ab_to_rgb_deep 3 := makes_comp

instance m_lch_ab_to_grey_true : Makes Converter.lch_ab_to_grey_true 5 := makes_comp

instance m_lch_ab_to_grey_deep : Makes Converter.lch_ab_to_grey_deep 4 := makes_comp

instance m_lch_ab_to_cmyk : Makes Converter.lch_ab_to_cmyk 4 := makes_comp

instance m_lch_ab_to_hsi : Makes Converter.lch_ab_to_hsi 4 := makes_comp

instance m_lch_ab_to_hsv : Makes Converter.lch_ab_to_hsv 4 := makes_comp

instance m_lch_ab_to_hsl : Makes Converter.lch_ab_to_hsl 4 := makes_comp

instance m_lch_ab_to_hcy : Makes Converter.lch_ab_to_hcy 4 := makes_comp

instance m_lch_ab_to_xyz : Makes Converter.lch_ab_to_xyz 2 := makes_comp

instance m_lch_ab_to_xyy : Makes Converter.lch_ab_to_xyy 3 := makes_comp

instance m_lch_ab_to_cieluv : Makes Converter.lch_ab_to_cieluv 3 := makes_comp

instance m_lch_ab_to_lch_uv : Makes Converter.lch_ab_to_lch_uv 4 := makes_comp

instance m_lch_uv_to_rgb_true : Makes Converter.lch_uv_to_rgb_true 4 := makes_comp

instance m_lch_uv_to_rgb_deep : Makes Converter.lch_uv_to_rgb_deep 3 := makes_comp

instance m_lch_uv_to_grey_true : Makes Converter.lch_uv_to_grey_true 5 := makes_comp

instance m_lch_uv_to_grey_deep : Makes Converter.lch_uv_to_grey_deep 4 := makes_comp

instance m_lch_uv_to_cmyk : Makes Converter.lch_uv_to_cmyk 4 := makes_comp

instance m_lch_uv_to_hsi : Makes Converter.lch_uv_to_hsi 4 := makes_comp

instance m_lch_uv_to_hsv : Makes Converter.lch_uv_to_hsv 4 := makes_comp

instance m_lch_uv_to_hsl : Makes Converter.lch_uv_to_hsl 4 := makes_comp

instance m_lch_uv_to_hcy : Makes Converter.lch_uv_to_hcy 4 := makes_comp

instance m_lch_uv_to_xyz : Makes Converter.lch_uv_to_xyz 2 := makes_comp

instance m_lch_uv_to_xyy : Makes Converter.lch_uv_to_xyy 3 := makes_comp

instance m_lch_uv_to_lab : Makes Converter.lch_uv_to_lab 3 := makes_comp

instance m_lch_uv_to_lch_ab : Makes Converter.lch_uv_to_lch_ab 4 := makes_comp

end Grow
