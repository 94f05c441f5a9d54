import Verif.Par

/-! Generated by a script: the rules of `Verif/Par.lean` applied to every function of `Verif/Converter.lean`. -/

open Outcome Fl Prog ParSpec

namespace Par
variable [FloatModel]

instance d_rgb_true_to_rgb_deep (p : Ptr) : Dull (Converter.rgb_true_to_rgb_deep p) := dull_map Conv.blind_rgb_true_to_rgb_deep p

instance d_rgb_true_to_grey_true (p : Ptr) : Dull (Converter.rgb_true_to_grey_true p) := dull_map Conv.blind_rgb_true_to_grey_true p

instance d_rgb_true_to_grey_deep (p : Ptr) : Dull (Converter.rgb_true_to_grey_deep p) := ⟨Both.bindDull fun q => both_loadBind fun c a => both_loadBind fun g b => both_allocSmap (by
  simp only [Leaf.grey_copy_to_deep]
  blind)⟩

instance d_rgb_deep_to_rgb_true (p : Ptr) : Dull (Converter.rgb_deep_to_rgb_true p) := dull_map Conv.blind_rgb_deep_to_rgb_true p

instance d_rgb_deep_to_grey_deep (p : Ptr) : Dull (Converter.rgb_deep_to_grey_deep p) := dull_map Conv.blind_rgb_deep_to_grey_deep p

instance d_rgb_deep_to_cmyk (p : Ptr) : Dull (Converter.rgb_deep_to_cmyk p) := dull_map Conv.blind_rgb_deep_to_cmyk p

instance d_rgb_deep_to_hsi (p : Ptr) : Dull (Converter.rgb_deep_to_hsi p) := dull_map Conv.blind_rgb_deep_to_hsi p

instance d_rgb_deep_to_hsv (p : Ptr) : Dull (Converter.rgb_deep_to_hsv p) := dull_map Conv.blind_rgb_deep_to_hsv p

instance d_rgb_deep_to_hsl (p : Ptr) : Dull (Converter.rgb_deep_to_hsl p) := dull_map Conv.blind_rgb_deep_to_hsl p

instance d_rgb_deep_to_hcy (p : Ptr) : Dull (Converter.rgb_deep_to_hcy p) := dull_map Conv.blind_rgb_deep_to_hcy p

instance d_rgb_deep_to_xyz (p : Ptr) : Dull (Converter.rgb_deep_to_xyz p) := ⟨both_loadBind fun c a => both_worldBind fun w =>
  (both_smap (Conv.blind_inverseGamma w c a).symm).bind fun d d' e => (both_store p (eqv_eq e)).bindEq' fun _ =>
    both_allocSmap (Conv.blind_linear_to_xyz.eq e)⟩

instance d_grey_true_to_rgb_true (p : Ptr) : Dull (Converter.grey_true_to_rgb_true p) := dull_map Conv.blind_grey_true_to_rgb_true p

instance d_grey_true_to_rgb_deep (p : Ptr) : Dull (Converter.grey_true_to_rgb_deep p) := dull_map Conv.blind_grey_true_to_rgb_deep p

instance d_grey_true_to_grey_deep (p : Ptr) : Dull (Converter.grey_true_to_grey_deep p) := dull_map Conv.blind_grey_true_to_grey_deep p

instance d_grey_deep_to_rgb_true (p : Ptr) : Dull (Converter.grey_deep_to_rgb_true p) := dull_map Conv.blind_grey_deep_to_rgb_true p

instance d_grey_deep_to_rgb_deep (p : Ptr) : Dull (Converter.grey_deep_to_rgb_deep p) := dull_map Conv.blind_grey_deep_to_rgb_deep p

instance d_grey_deep_to_grey_true (p : Ptr) : Dull (Converter.grey_deep_to_grey_true p) := dull_map Conv.blind_grey_deep_to_grey_true p

instance d_cmyk_to_rgb_deep (p : Ptr) : Dull (Converter.cmyk_to_rgb_deep p) := dull_map Conv.blind_cmyk_to_rgb_deep p

instance d_hsi_to_rgb_deep (p : Ptr) : Dull (Converter.hsi_to_rgb_deep p) := dull_map Conv.blind_hsi_to_rgb_deep p

instance d_hsv_to_rgb_deep (p : Ptr) : Dull (Converter.hsv_to_rgb_deep p) := dull_map Conv.blind_hsv_to_rgb_deep p

instance d_hsv_to_hsl (p : Ptr) : Dull (Converter.hsv_to_hsl p) := dull_map Conv.blind_hsv_to_hsl p

instance d_hsl_to_rgb_deep (p : Ptr) : Dull (Converter.hsl_to_rgb_deep p) := dull_map Conv.blind_hsl_to_rgb_deep p

instance d_hsl_to_hsv (p : Ptr) : Dull (Converter.hsl_to_hsv p) := dull_map Conv.blind_hsl_to_hsv p

instance d_hcy_to_rgb_deep (p : Ptr) : Dull (Converter.hcy_to_rgb_deep p) := dull_map Conv.blind_hcy_to_rgb_deep p

instance d_xyz_to_rgb_deep (p : Ptr) : Dull (Converter.xyz_to_rgb_deep p) := dull_map Conv.blind_xyz_to_rgb_deep p

instance d_xyz_to_xyy (p : Ptr) : Dull (Converter.xyz_to_xyy p) := dull_map Conv.blind_xyz_to_xyy p

instance d_xyz_to_cieluv (p : Ptr) : Dull (Converter.xyz_to_cieluv p) := dull_map Conv.blind_xyz_to_cieluv p

instance d_xyz_to_lab (p : Ptr) : Dull (Converter.xyz_to_lab p) := dull_map Conv.blind_xyz_to_lab p

instance d_xyy_to_xyz (p : Ptr) : Dull (Converter.xyy_to_xyz p) := dull_map Conv.blind_xyy_to_xyz p

instance d_cieluv_to_xyz (p : Ptr) : Dull (Converter.cieluv_to_xyz p) := dull_map Conv.blind_cieluv_to_xyz p

instance d_cieluv_to_lch_uv (p : Ptr) : Dull (Converter.cieluv_to_lch_uv p) := dull_map Conv.blind_cieluv_to_lch_uv p

instance d_lab_to_xyz (p : Ptr) : Dull (Converter.lab_to_xyz p) := dull_map Conv.blind_lab_to_xyz p

instance d_lab_to_lch_ab (p : Ptr) : Dull (Converter.lab_to_lch_ab p) := dull_map Conv.blind_lab_to_lch_ab p

instance d_lch_ab_to_lab (p : Ptr) : Dull (Converter.lch_ab_to_lab p) := dull_map Conv.blind_lch_ab_to_lab p

instance d_lch_uv_to_cieluv (p : Ptr) : Dull (Converter.lch_uv_to_cieluv p) := dull_map Conv.blind_lch_uv_to_cieluv p

instance d_rgb_true_to_cmyk (p : Ptr) : Dull (Converter.rgb_true_to_cmyk p) := dull_bind

instance d_rgb_true_to_hsi (p : Ptr) : Dull (Converter.rgb_true_to_hsi p) := dull_bind

instance d_rgb_true_to_hsv (p : Ptr) : Dull (Converter.rgb_true_to_hsv p) := dull_bind

instance d_rgb_true_to_hsl (p : Ptr) : Dull (Converter.rgb_true_to_hsl p) := dull_bind

instance d_rgb_true_to_hcy (p : Ptr) : Dull (Converter.rgb_true_to_hcy p) := dull_bind

instance d_rgb_true_to_xyz (p : Ptr) : Dull (Converter.rgb_true_to_xyz p) := dull_bind

instance d_rgb_true_to_xyy (p : Ptr) : Dull (Converter.rgb_true_to_xyy p) := dull_bind

instance d_rgb_true_to_cieluv (p : Ptr) : Dull (Converter.rgb_true_to_cieluv p) := dull_bind

instance d_rgb_deep_to_lab (p : Ptr) : Dull (Converter.rgb_deep_to_lab p) := dull_bind

instance d_rgb_true_to_lab (p : Ptr) : Dull (Converter.rgb_true_to_lab p) := dull_bind

instance d_rgb_true_to_lch_ab (p : Ptr) : Dull (Converter.rgb_true_to_lch_ab p) := dull_bind

instance d_rgb_true_to_lch_uv (p : Ptr) : Dull (Converter.rgb_true_to_lch_uv p) := dull_bind

instance d_rgb_deep_to_grey_true (p : Ptr) : Dull (Converter.rgb_deep_to_grey_true p) := dull_bind

instance d_rgb_deep_to_xyy (p : Ptr) : Dull (Converter.rgb_deep_to_xyy p) := dull_bind

instance d_rgb_deep_to_cieluv (p : Ptr) : Dull (Converter.rgb_deep_to_cieluv p) := dull_bind

instance d_rgb_deep_to_lch_ab (p : Ptr) : Dull (Converter.rgb_deep_to_lch_ab p) := dull_bind

instance d_rgb_deep_to_lch_uv (p : Ptr) : Dull (Converter.rgb_deep_to_lch_uv p) := dull_bind

instance d_grey_true_to_cmyk (p : Ptr) : Dull (Converter.grey_true_to_cmyk p) := dull_bind

instance d_grey_true_to_hsi (p : Ptr) : Dull (Converter.grey_true_to_hsi p) := dull_bind

instance d_grey_true_to_hsv (p : Ptr) : Dull (Converter.grey_true_to_hsv p) := dull_bind

instance d_grey_true_to_hsl (p : Ptr) : Dull (Converter.grey_true_to_hsl p) := dull_bind

instance d_grey_true_to_hcy (p : Ptr) : Dull (Converter.grey_true_to_hcy p) := dull_bind

instance d_grey_true_to_xyz (p : Ptr) : Dull (Converter.grey_true_to_xyz p) := dull_bind

instance d_grey_true_to_xyy (p : Ptr) : Dull (Converter.grey_true_to_xyy p) := dull_bind

instance d_grey_true_to_cieluv (p : Ptr) : Dull (Converter.grey_true_to_cieluv p) := dull_bind

instance d_grey_true_to_lab (p : Ptr) : Dull (Converter.grey_true_to_lab p) := dull_bind

instance d_grey_true_to_lch_ab (p : Ptr) : Dull (Converter.grey_true_to_lch_ab p) := dull_bind

instance d_grey_true_to_lch_uv (p : Ptr) : Dull (Converter.grey_true_to_lch_uv p) := dull_bind

instance d_grey_deep_to_cmyk (p : Ptr) : Dull (Converter.grey_deep_to_cmyk p) := dull_bind

instance d_grey_deep_to_hsi (p : Ptr) : Dull (Converter.grey_deep_to_hsi p) := dull_bind

instance d_grey_deep_to_hsv (p : Ptr) : Dull (Converter.grey_deep_to_hsv p) := dull_bind

instance d_grey_deep_to_hsl (p : Ptr) : Dull (Converter.grey_deep_to_hsl p) := dull_bind

instance d_grey_deep_to_hcy (p : Ptr) : Dull (Converter.grey_deep_to_hcy p) := dull_bind

instance d_grey_deep_to_xyz (p : Ptr) : Dull (Converter.grey_deep_to_xyz p) := dull_bind

instance d_grey_deep_to_xyy (p : Ptr) : Dull (Converter.grey_deep_to_xyy p) := dull_bind

instance d_grey_deep_to_cieluv (p : Ptr) : Dull (Converter.grey_deep_to_cieluv p) := dull_bind

instance d_grey_deep_to_lab (p : Ptr) : Dull (Converter.grey_deep_to_lab p) := dull_bind

instance d_grey_deep_to_lch_ab (p : Ptr) : Dull (Converter.grey_deep_to_lch_ab p) := dull_bind

instance d_grey_deep_to_lch_uv (p : Ptr) : Dull (Converter.grey_deep_to_lch_uv p) := dull_bind

instance d_cmyk_to_rgb_true (p : Ptr) : Dull (Converter.cmyk_to_rgb_true p) := dull_bind

instance d_cmyk_to_grey_true (p : Ptr) : Dull (Converter.cmyk_to_grey_true p) := dull_bind

instance d_cmyk_to_grey_deep (p : Ptr) : Dull (Converter.cmyk_to_grey_deep p) := dull_bind

instance d_cmyk_to_hsi (p : Ptr) : Dull (Converter.cmyk_to_hsi p) := dull_bind

instance d_cmyk_to_hsv (p : Ptr) : Dull (Converter.cmyk_to_hsv p) := dull_bind

instance d_cmyk_to_hsl (p : Ptr) : Dull (Converter.cmyk_to_hsl p) := dull_bind

instance d_cmyk_to_hcy (p : Ptr) : Dull (Converter.cmyk_to_hcy p) := dull_bind

instance d_cmyk_to_xyz (p : Ptr) : Dull (Converter.cmyk_to_xyz p) := dull_bind

instance d_cmyk_to_xyy (p : Ptr) : Dull (Converter.cmyk_to_xyy p) := dull_bind

instance d_cmyk_to_cieluv (p : Ptr) : Dull (Converter.cmyk_to_cieluv p) := dull_bind

instance d_cmyk_to_lab (p : Ptr) : Dull (Converter.cmyk_to_lab p) := dull_bind

instance d_cmyk_to_lch_ab (p : Ptr) : Dull (Converter.cmyk_to_lch_ab p) := dull_bind

instance d_cmyk_to_lch_uv (p : Ptr) : Dull (Converter.cmyk_to_lch_uv p) := dull_bind

instance d_hsi_to_rgb_true (p : Ptr) : Dull (Converter.hsi_to_rgb_true p) := dull_bind

instance d_hsi_to_grey_true (p : Ptr) : Dull (Converter.hsi_to_grey_true p) := dull_bind

instance d_hsi_to_grey_deep (p : Ptr) : Dull (Converter.hsi_to_grey_deep p) := dull_bind

instance d_hsi_to_cmyk (p : Ptr) : Dull (Converter.hsi_to_cmyk p) := dull_bind

instance d_hsi_to_hsv (p : Ptr) : Dull (Converter.hsi_to_hsv p) := dull_bind

instance d_hsi_to_hsl (p : Ptr) : Dull (Converter.hsi_to_hsl p) := dull_bind

instance d_hsi_to_hcy (p : Ptr) : Dull (Converter.hsi_to_hcy p) := dull_bind

instance d_hsi_to_xyz (p : Ptr) : Dull (Converter.hsi_to_xyz p) := dull_bind

instance d_hsi_to_xyy (p : Ptr) : Dull (Converter.hsi_to_xyy p) := dull_bind

instance d_hsi_to_cieluv (p : Ptr) : Dull (Converter.hsi_to_cieluv p) := dull_bind

instance d_hsi_to_lab (p : Ptr) : Dull (Converter.hsi_to_lab p) := dull_bind

instance d_hsi_to_lch_ab (p : Ptr) : Dull (Converter.hsi_to_lch_ab p) := dull_bind

instance d_hsi_to_lch_uv (p : Ptr) : Dull (Converter.hsi_to_lch_uv p) := dull_bind

instance d_hsv_to_rgb_true (p : Ptr) : Dull (Converter.hsv_to_rgb_true p) := dull_bind

instance d_hsv_to_grey_true (p : Ptr) : Dull (Converter.hsv_to_grey_true p) := dull_bind

instance d_hsv_to_grey_deep (p : Ptr) : Dull (Converter.hsv_to_grey_deep p) := dull_bind

instance d_hsv_to_cmyk (p : Ptr) : Dull (Converter.hsv_to_cmyk p) := dull_bind

instance d_hsv_to_hsi (p : Ptr) : Dull (Converter.hsv_to_hsi p) := dull_bind

instance d_hsv_to_hcy (p : Ptr) : Dull (Converter.hsv_to_hcy p) := dull_bind

instance d_hsv_to_xyz (p : Ptr) : Dull (Converter.hsv_to_xyz p) := dull_bind

instance d_hsv_to_xyy (p : Ptr) : Dull (Converter.hsv_to_xyy p) := dull_bind

instance d_hsv_to_cieluv (p : Ptr) : Dull (Converter.hsv_to_cieluv p) := dull_bind

instance d_hsv_to_lab (p : Ptr) : Dull (Converter.hsv_to_lab p) := dull_bind

instance d_hsv_to_lch_ab (p : Ptr) : Dull (Converter.hsv_to_lch_ab p) := dull_bind

instance d_hsv_to_lch_uv (p : Ptr) : Dull (Converter.hsv_to_lch_uv p) := dull_bind

instance d_hsl_to_rgb_true (p : Ptr) : Dull (Converter.hsl_to_rgb_true p) := dull_bind

instance d_hsl_to_grey_true (p : Ptr) : Dull (Converter.hsl_to_grey_true p) := dull_bind

instance d_hsl_to_grey_deep (p : Ptr) : Dull (Converter.hsl_to_grey_deep p) := dull_bind

instance d_hsl_to_cmyk (p : Ptr) : Dull (Converter.hsl_to_cmyk p) := dull_bind

instance d_hsl_to_hsi (p : Ptr) : Dull (Converter.hsl_to_hsi p) := dull_bind

instance d_hsl_to_hcy (p : Ptr) : Dull (Converter.hsl_to_hcy p) := dull_bind

instance d_hsl_to_xyz (p : Ptr) : Dull (Converter.hsl_to_xyz p) := dull_bind

instance d_hsl_to_xyy (p : Ptr) : Dull (Converter.hsl_to_xyy p) := dull_bind

instance d_hsl_to_cieluv (p : Ptr) : Dull (Converter.hsl_to_cieluv p) := dull_bind

instance d_hsl_to_lab (p : Ptr) : Dull (Converter.hsl_to_lab p) := dull_bind

instance d_hsl_to_lch_ab (p : Ptr) : Dull (Converter.hsl_to_lch_ab p) := dull_bind

instance d_hsl_to_lch_uv (p : Ptr) : Dull (Converter.hsl_to_lch_uv p) := dull_bind

instance d_hcy_to_rgb_true (p : Ptr) : Dull (Converter.hcy_to_rgb_true p) := dull_bind

instance d_hcy_to_grey_true (p : Ptr) : Dull (Converter.hcy_to_grey_true p) := dull_bind

instance d_hcy_to_grey_deep (p : Ptr) : Dull (Converter.hcy_to_grey_deep p) := dull_bind

instance d_hcy_to_cmyk (p : Ptr) : Dull (Converter.hcy_to_cmyk p) := dull_bind

instance d_hcy_to_hsi (p : Ptr) : Dull (Converter.hcy_to_hsi p) := dull_bind

instance d_hcy_to_hsv (p : Ptr) : Dull (Converter.hcy_to_hsv p) := dull_bind

instance d_hcy_to_hsl (p : Ptr) : Dull (Converter.hcy_to_hsl p) := dull_bind

instance d_hcy_to_xyz (p : Ptr) : Dull (Converter.hcy_to_xyz p) := dull_bind

instance d_hcy_to_xyy (p : Ptr) : Dull (Converter.hcy_to_xyy p) := dull_bind

instance d_hcy_to_cieluv (p : Ptr) : Dull (Converter.hcy_to_cieluv p) := dull_bind

instance d_hcy_to_lab (p : Ptr) : Dull (Converter.hcy_to_lab p) := dull_bind

instance d_hcy_to_lch_ab (p : Ptr) : Dull (Converter.hcy_to_lch_ab p) := dull_bind

instance d_hcy_to_lch_uv (p : Ptr) : Dull (Converter.hcy_to_lch_uv p) := dull_bind

instance d_xyz_to_rgb_true (p : Ptr) : Dull (Converter.xyz_to_rgb_true p) := dull_bind

instance d_xyz_to_grey_true (p : Ptr) : Dull (Converter.xyz_to_grey_true p) := dull_bind

instance d_xyz_to_grey_deep (p : Ptr) : Dull (Converter.xyz_to_grey_deep p) := dull_bind

instance d_xyz_to_cmyk (p : Ptr) : Dull (Converter.xyz_to_cmyk p) := dull_bind

instance d_xyz_to_hsi (p : Ptr) : Dull (Converter.xyz_to_hsi p) := dull_bind

instance d_xyz_to_hsv (p : Ptr) : Dull (Converter.xyz_to_hsv p) := dull_bind

instance d_xyz_to_hsl (p : Ptr) : Dull (Converter.xyz_to_hsl p) := dull_bind

instance d_xyz_to_hcy (p : Ptr) : Dull (Converter.xyz_to_hcy p) := dull_bind

instance d_xyz_to_lch_ab (p : Ptr) : Dull (Converter.xyz_to_lch_ab p) := dull_bind

instance d_xyz_to_lch_uv (p : Ptr) : Dull (Converter.xyz_to_lch_uv p) := dull_bind

instance d_xyy_to_rgb_true (p : Ptr) : Dull (Converter.xyy_to_rgb_true p) := dull_bind

instance d_xyy_to_rgb_deep (p : Ptr) : Dull (Converter.xyy_to_rgb_deep p) := dull_bind

instance d_xyy_to_grey_true (p : Ptr) : Dull (Converter.xyy_to_grey_true p) := dull_bind

instance d_xyy_to_grey_deep (p : Ptr) : Dull (Converter.xyy_to_grey_deep p) := dull_bind

instance d_xyy_to_cmyk (p : Ptr) : Dull (Converter.xyy_to_cmyk p) := dull_bind

instance d_xyy_to_hsi (p : Ptr) : Dull (Converter.xyy_to_hsi p) := dull_bind

instance d_xyy_to_hsv (p : Ptr) : Dull (Converter.xyy_to_hsv p) := dull_bind

instance d_xyy_to_hsl (p : Ptr) : Dull (Converter.xyy_to_hsl p) := dull_bind

instance d_xyy_to_hcy (p : Ptr) : Dull (Converter.xyy_to_hcy p) := dull_bind

instance d_xyy_to_cieluv (p : Ptr) : Dull (Converter.xyy_to_cieluv p) := dull_bind

instance d_xyy_to_lab (p : Ptr) : Dull (Converter.xyy_to_lab p) := dull_bind

instance d_xyy_to_lch_ab (p : Ptr) : Dull (Converter.xyy_to_lch_ab p) := dull_bind

instance d_xyy_to_lch_uv (p : Ptr) : Dull (Converter.xyy_to_lch_uv p) := dull_bind

instance d_cieluv_to_rgb_true (p : Ptr) : Dull (Converter.cieluv_to_rgb_true p) := dull_bind

instance d_cieluv_to_rgb_deep (p : Ptr) : Dull (Converter.cieluv_to_rgb_deep p) := dull_bind

instance d_cieluv_to_grey_true (p : Ptr) : Dull (Converter.cieluv_to_grey_true p) := dull_bind

instance d_cieluv_to_grey_deep (p : Ptr) : Dull (Converter.cieluv_to_grey_deep p) := dull_bind

instance d_cieluv_to_cmyk (p : Ptr) : Dull (Converter.cieluv_to_cmyk p) := dull_bind

instance d_cieluv_to_hsi (p : Ptr) : Dull (Converter.cieluv_to_hsi p) := dull_bind

instance d_cieluv_to_hsv (p : Ptr) : Dull (Converter.cieluv_to_hsv p) := dull_bind

instance d_cieluv_to_hsl (p : Ptr) : Dull (Converter.cieluv_to_hsl p) := dull_bind

instance d_cieluv_to_hcy (p : Ptr) : Dull (Converter.cieluv_to_hcy p) := dull_bind

instance d_cieluv_to_xyy (p : Ptr) : Dull (Converter.cieluv_to_xyy p) := dull_bind

instance d_cieluv_to_lab (p : Ptr) : Dull (Converter.cieluv_to_lab p) := dull_bind

instance d_cieluv_to_lch_ab (p : Ptr) : Dull (Converter.cieluv_to_lch_ab p) := dull_bind

instance d_lab_to_rgb_true (p : Ptr) : Dull (Converter.lab_to_rgb_true p) := dull_bind

instance d_lab_to_rgb_deep (p : Ptr) : Dull (Converter.lab_to_rgb_deep p) := dull_bind

instance d_lab_to_grey_true (p : Ptr) : Dull (Converter.lab_to_grey_true p) := dull_bind

instance d_lab_to_grey_deep (p : Ptr) : Dull (Converter.lab_to_grey_deep p) := dull_bind

instance d_lab_to_cmyk (p : Ptr) : Dull (Converter.lab_to_cmyk p) := dull_bind

instance d_lab_to_hsi (p : Ptr) : Dull (Converter.lab_to_hsi p) := dull_bind

instance d_lab_to_hsv (p : Ptr) : Dull (Converter.lab_to_hsv p) := dull_bind

instance d_lab_to_hsl (p : Ptr) : Dull (Converter.lab_to_hsl p) := dull_bind

instance d_lab_to_hcy (p : Ptr) : Dull (Converter.lab_to_hcy p) := dull_bind

instance d_lab_to_xyy (p : Ptr) : Dull (Converter.lab_to_xyy p) := dull_bind

instance d_lab_to_cieluv (p : Ptr) : Dull (Converter.lab_to_cieluv p) := dull_bind

instance d_lab_to_lch_uv (p : Ptr) : Dull (Converter.lab_to_lch_uv p) := dull_bind

instance d_lch_ab_to_rgb_true (p : Ptr) : Dull (Converter.lch_ab_to_rgb_true p) := dull_bind

instance d_lch_ab_to_rgb_deep (p : Ptr) : Dull (Converter.lch_ab_to_rgb_deep p) := dull_bind

instance d_lch_ab_to_grey_true (p : Ptr) : Dull (Converter.lch_ab_to_grey_true p) := dull_bind

instance d_lch_ab_to_grey_deep (p : Ptr) : Dull (Converter.lch_ab_to_grey_deep p) := dull_bind

instance d_lch_ab_to_cmyk (p : Ptr) : Dull (Converter.lch_ab_to_cmyk p) := dull_bind

instance d_lch_ab_to_hsi (p : Ptr) : Dull (Converter.lch_ab_to_hsi p) := dull_bind

instance d_lch_ab_to_hsv (p : Ptr) : Dull (Converter.lch_ab_to_hsv p) := dull_bind

instance d_lch_ab_to_hsl (p : Ptr) : Dull (Converter.lch_ab_to_hsl p) := dull_bind

instance d_lch_ab_to_hcy (p : Ptr) : Dull (Converter.lch_ab_to_hcy p) := dull_bind

instance d_lch_ab_to_xyz (p : Ptr) : Dull (Converter.lch_ab_to_xyz p) := dull_bind

instance d_lch_ab_to_xyy (p : Ptr) : Dull (Converter.lch_ab_to_xyy p) := dull_bind

instance d_lch_ab_to_cieluv (p : Ptr) : Dull (Converter.lch_ab_to_cieluv p) := dull_bind

instance d_lch_ab_to_lch_uv (p : Ptr) : Dull (Converter.lch_ab_to_lch_uv p) := dull_bind

instance d_lch_uv_to_rgb_true (p : Ptr) : Dull (Converter.lch_uv_to_rgb_true p) := dull_bind

instance d_lch_uv_to_rgb_deep (p : Ptr) : Dull (Converter.lch_uv_to_rgb_deep p) := dull_bind

instance d_lch_uv_to_grey_true (p : Ptr) : Dull (Converter.lch_uv_to_grey_true p) := dull_bind

instance d_lch_uv_to_grey_deep (p : Ptr) : Dull (Converter.lch_uv_to_grey_deep p) := dull_bind

instance d_lch_uv_to_cmyk (p : Ptr) : Dull (Converter.lch_uv_to_cmyk p) := dull_bind

instance d_lch_uv_to_hsi (p : Ptr) : Dull (Converter.lch_uv_to_hsi p) := dull_bind

instance d_lch_uv_to_hsv (p : Ptr) : Dull (Converter.lch_uv_to_hsv p) := dull_bind

instance d_lch_uv_to_hsl (p : Ptr) : Dull (Converter.lch_uv_to_hsl p) := dull_bind

instance d_lch_uv_to_hcy (p : Ptr) : Dull (Converter.lch_uv_to_hcy p) := dull_bind

instance d_lch_uv_to_xyz (p : Ptr) : Dull (Converter.lch_uv_to_xyz p) := dull_bind

instance d_lch_uv_to_xyy (p : Ptr) : Dull (Converter.lch_uv_to_xyy p) := dull_bind

instance d_lch_uv_to_lab (p : Ptr) : Dull (Converter.lch_uv_to_lab p) := dull_bind

instance d_lch_uv_to_lch_ab (p : Ptr) : Dull (Converter.lch_uv_to_lch_ab p) := dull_bind

instance d_to_rgb_true (p : Ptr) : Dull (Converter.to_rgb_true p) := ⟨both_loadBind fun c a => by
  simp only []
  split <;> exact Dull.both⟩

instance d_to_rgb_deep (p : Ptr) : Dull (Converter.to_rgb_deep p) := ⟨both_loadBind fun c a => by
  simp only []
  split <;> exact Dull.both⟩

instance d_to_grey_true (p : Ptr) : Dull (Converter.to_grey_true p) := ⟨both_loadBind fun c a => by
  simp only []
  split <;> exact Dull.both⟩

instance d_to_grey_deep (p : Ptr) : Dull (Converter.to_grey_deep p) := ⟨both_loadBind fun c a => by
  simp only []
  split <;> exact Dull.both⟩

instance d_to_cmyk (p : Ptr) : Dull (Converter.to_cmyk p) := ⟨both_loadBind fun c a => by
  simp only []
  split <;> exact Dull.both⟩

instance d_to_hsi (p : Ptr) : Dull (Converter.to_hsi p) := ⟨both_loadBind fun c a => by
  simp only []
  split <;> exact Dull.both⟩

instance d_to_hsv (p : Ptr) : Dull (Converter.to_hsv p) := ⟨both_loadBind fun c a => by
  simp only []
  split <;> exact Dull.both⟩

instance d_to_hsl (p : Ptr) : Dull (Converter.to_hsl p) := ⟨both_loadBind fun c a => by
  simp only []
  split <;> exact Dull.both⟩

instance d_to_hcy (p : Ptr) : Dull (Converter.to_hcy p) := ⟨both_loadBind fun c a => by
  simp only []
  split <;> exact Dull.both⟩

instance d_to_xyz (p : Ptr) : Dull (Converter.to_xyz p) := ⟨both_loadBind fun c a => by
  simp only []
  split <;> exact Dull.both⟩

instance d_to_xyy (p : Ptr) : Dull (Converter.to_xyy p) := ⟨both_loadBind fun c a => by
  simp only []
  split <;> exact Dull.both⟩

instance d_to_cieluv (p : Ptr) : Dull (Converter.to_cieluv p) := ⟨both_loadBind fun c a => by
  simp only []
  split <;> exact Dull.both⟩

instance d_to_lab (p : Ptr) : Dull (Converter.to_lab p) := ⟨both_loadBind fun c a => by
  simp only []
  split <;> exact Dull.both⟩

instance d_to_lch_ab (p : Ptr) : Dull (Converter.to_lch_ab p) := ⟨both_loadBind fun c a => by
  simp only []
  split <;> exact Dull.both⟩

instance d_to_lch_uv (p : Ptr) : Dull (Converter.to_lch_uv p) := ⟨both_loadBind fun c a => by
  simp only []
  split <;> exact Dull.both⟩

instance d_convertTo (p : Ptr) (t : ColorType) : Dull (Converter.convertTo p t) := by
  cases t <;> simp only [Converter.convertTo] <;> infer_instance

end Par
