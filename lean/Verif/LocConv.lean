import Verif.Loc

/-! Generated by a script: the rules of `Verif/Loc.lean` applied to every function of `Verif/Converter.lean`. -/

open Outcome Fl Prog

namespace Loc
variable [FloatModel]

instance l_rgb_true_to_rgb_deep : Local Converter.rgb_true_to_rgb_deep := local_map _

instance l_rgb_true_to_grey_true : Local Converter.rgb_true_to_grey_true := local_map _

instance l_rgb_true_to_grey_deep : Local Converter.rgb_true_to_grey_deep := ⟨fun _ _ _ hp => both_callBind hp fun _ _ _ le hq => both_loadBind (hp.mono le) fun _ => both_loadBind hq fun _ => both_liftBind _ fun _ => both_alloc _⟩

instance l_rgb_deep_to_rgb_true : Local Converter.rgb_deep_to_rgb_true := local_map _

instance l_rgb_deep_to_grey_deep : Local Converter.rgb_deep_to_grey_deep := local_map _

instance l_rgb_deep_to_cmyk : Local Converter.rgb_deep_to_cmyk := local_map _

instance l_rgb_deep_to_hsi : Local Converter.rgb_deep_to_hsi := local_map _

instance l_rgb_deep_to_hsv : Local Converter.rgb_deep_to_hsv := local_map _

instance l_rgb_deep_to_hsl : Local Converter.rgb_deep_to_hsl := local_map _

instance l_rgb_deep_to_hcy : Local Converter.rgb_deep_to_hcy := local_map _

instance l_rgb_deep_to_xyz : Local Converter.rgb_deep_to_xyz := ⟨fun _ _ _ hp => both_loadBind hp fun _ => both_worldBind fun _ => both_liftBind _ fun _ => both_storeBind hp _ (both_liftBind _ fun _ => both_alloc _)⟩

instance l_grey_true_to_rgb_true : Local Converter.grey_true_to_rgb_true := local_map _

instance l_grey_true_to_rgb_deep : Local Converter.grey_true_to_rgb_deep := local_map _

instance l_grey_true_to_grey_deep : Local Converter.grey_true_to_grey_deep := local_map _

instance l_grey_deep_to_rgb_true : Local Converter.grey_deep_to_rgb_true := local_map _

instance l_grey_deep_to_rgb_deep : Local Converter.grey_deep_to_rgb_deep := local_map _

instance l_grey_deep_to_grey_true : Local Converter.grey_deep_to_grey_true := local_map _

instance l_cmyk_to_rgb_deep : Local Converter.cmyk_to_rgb_deep := local_map _

instance l_hsi_to_rgb_deep : Local Converter.hsi_to_rgb_deep := local_map _

instance l_hsv_to_rgb_deep : Local Converter.hsv_to_rgb_deep := local_map _

instance l_hsv_to_hsl : Local Converter.hsv_to_hsl := local_map _

instance l_hsl_to_rgb_deep : Local Converter.hsl_to_rgb_deep := local_map _

instance l_hsl_to_hsv : Local Converter.hsl_to_hsv := local_map _

instance l_hcy_to_rgb_deep : Local Converter.hcy_to_rgb_deep := local_map _

instance l_xyz_to_rgb_deep : Local Converter.xyz_to_rgb_deep := local_map _

instance l_xyz_to_xyy : Local Converter.xyz_to_xyy := local_map _

instance l_xyz_to_cieluv : Local Converter.xyz_to_cieluv := local_map _

instance l_xyz_to_lab : Local Converter.xyz_to_lab := local_map _

instance l_xyy_to_xyz : Local Converter.xyy_to_xyz := local_map _

instance l_cieluv_to_xyz : Local Converter.cieluv_to_xyz := local_map _

instance l_cieluv_to_lch_uv : Local Converter.cieluv_to_lch_uv := local_map _

instance l_lab_to_xyz : Local Converter.lab_to_xyz := local_map _

instance l_lab_to_lch_ab : Local Converter.lab_to_lch_ab := local_map _

instance l_lch_ab_to_lab : Local Converter.lch_ab_to_lab := local_map _

instance l_lch_uv_to_cieluv : Local Converter.lch_uv_to_cieluv := local_map _

instance l_rgb_true_to_cmyk : Local Converter.rgb_true_to_cmyk := local_comp

instance l_rgb_true_to_hsi : Local Converter.rgb_true_to_hsi := local_comp

instance l_rgb_true_to_hsv : Local Converter.rgb_true_to_hsv := local_comp

instance l_rgb_true_to_hsl : Local Converter.rgb_true_to_hsl := local_comp

instance l_rgb_true_to_hcy : Local Converter.rgb_true_to_hcy := local_comp

instance l_rgb_true_to_xyz : Local Converter.rgb_true_to_xyz := local_comp

instance l_rgb_true_to_xyy : Local Converter.rgb_true_to_xyy := local_comp

instance l_rgb_true_to_cieluv : Local Converter.rgb_true_to_cieluv := local_comp

instance l_rgb_deep_to_lab : Local Converter.rgb_deep_to_lab := local_comp

instance l_rgb_true_to_lab : Local Converter.rgb_true_to_lab := local_comp

instance l_rgb_true_to_lch_ab : Local Converter.rgb_true_to_lch_ab := local_comp

instance l_rgb_true_to_lch_uv : Local Converter.rgb_true_to_lch_uv := local_comp

instance l_rgb_deep_to_grey_true : Local Converter.rgb_deep_to_grey_true := local_comp

instance l_rgb_deep_to_xyy : Local Converter.rgb_deep_to_xyy := local_comp

instance l_rgb_deep_to_cieluv : Local Converter.rgb_deep_to_cieluv := local_comp

instance l_rgb_deep_to_lch_ab : Local Converter.rgb_deep_to_lch_ab := local_comp

instance l_rgb_deep_to_lch_uv : Local Converter.rgb_deep_to_lch_uv := local_comp

instance l_grey_true_to_cmyk : Local Converter.grey_true_to_cmyk := local_comp

instance l_grey_true_to_hsi : Local Converter.grey_true_to_hsi := local_comp

instance l_grey_true_to_hsv : Local Converter.grey_true_to_hsv := local_comp

instance l_grey_true_to_hsl : Local Converter.grey_true_to_hsl := local_comp

instance l_grey_true_to_hcy : Local Converter.grey_true_to_hcy := local_comp

instance l_grey_true_to_xyz : Local Converter.grey_true_to_xyz := local_comp

instance l_grey_true_to_xyy : Local Converter.grey_true_to_xyy := local_comp

instance l_grey_true_to_cieluv : Local Converter.grey_true_to_cieluv := local_comp

instance l_grey_true_to_lab : Local Converter.grey_true_to_lab := local_comp

instance l_grey_true_to_lch_ab : Local Converter.grey_true_to_lch_ab := local_comp

instance l_grey_true_to_lch_uv : Local Converter.grey_true_to_lch_uv := local_comp

instance l_grey_deep_to_cmyk : Local Converter.grey_deep_to_cmyk := local_comp

instance l_grey_deep_to_hsi : Local Converter.grey_deep_to_hsi := local_comp

instance l_grey_deep_to_hsv : Local Converter.grey_deep_to_hsv := local_comp

instance l_grey_deep_to_hsl : Local Converter.grey_deep_to_hsl := local_comp

instance l_grey_deep_to_hcy : Local Converter.grey_deep_to_hcy := local_comp

instance l_grey_deep_to_xyz : Local Converter.grey_deep_to_xyz := local_comp

instance l_grey_deep_to_xyy : Local Converter.grey_deep_to_xyy := local_comp

instance l_grey_deep_to_cieluv : Local Converter.grey_deep_to_cieluv := local_comp

instance l_grey_deep_to_lab : Local Converter.grey_deep_to_lab := local_comp

instance l_grey_deep_to_lch_ab : Local Converter.grey_deep_to_lch_ab := local_comp

instance l_grey_deep_to_lch_uv : Local Converter.grey_deep_to_lch_uv := local_comp

instance l_cmyk_to_rgb_true : Local Converter.cmyk_to_rgb_true := local_comp

instance l_cmyk_to_grey_true : Local Converter.cmyk_to_grey_true := local_comp

instance l_cmyk_to_grey_deep : Local Converter.cmyk_to_grey_deep := local_comp

instance l_cmyk_to_hsi : Local Converter.cmyk_to_hsi := local_comp

instance l_cmyk_to_hsv : Local Converter.cmyk_to_hsv := local_comp

instance l_cmyk_to_hsl : Local Converter.cmyk_to_hsl := local_comp

instance l_cmyk_to_hcy : Local Converter.cmyk_to_hcy := local_comp

instance l_cmyk_to_xyz : Local Converter.cmyk_to_xyz := local_comp

instance l_cmyk_to_xyy : Local Converter.cmyk_to_xyy := local_comp

instance l_cmyk_to_cieluv : Local Converter.cmyk_to_cieluv := local_comp

instance l_cmyk_to_lab : Local Converter.cmyk_to_lab := local_comp

instance l_cmyk_to_lch_ab : Local Converter.cmyk_to_lch_ab := local_comp

instance l_cmyk_to_lch_uv : Local Converter.cmyk_to_lch_uv := local_comp

instance l_hsi_to_rgb_true : Local Converter.hsi_to_rgb_true := local_comp

instance l_hsi_to_grey_true : Local Converter.hsi_to_grey_true := local_comp

instance l_hsi_to_grey_deep : Local Converter.hsi_to_grey_deep := local_comp

instance l_hsi_to_cmyk : Local Converter.hsi_to_cmyk := local_comp

instance l_hsi_to_hsv : Local Converter.hsi_to_hsv := local_comp

instance l_hsi_to_hsl : Local Converter.hsi_to_hsl := local_comp

instance l_hsi_to_hcy : Local Converter.hsi_to_hcy := local_comp

instance l_hsi_to_xyz : Local Converter.hsi_to_xyz := local_comp

instance l_hsi_to_xyy : Local Converter.hsi_to_xyy := local_comp

instance l_hsi_to_cieluv : Local Converter.hsi_to_cieluv := local_comp

instance l_hsi_to_lab : Local Converter.hsi_to_lab := local_comp

instance l_hsi_to_lch_ab : Local Converter.hsi_to_lch_ab := local_comp

instance l_hsi_to_lch_uv : Local Converter.hsi_to_lch_uv := local_comp

instance l_hsv_to_rgb_true : Local Converter.hsv_to_rgb_true := local_comp

instance l_hsv_to_grey_true : Local Converter.hsv_to_grey_true := local_comp

instance l_hsv_to_grey_deep : Local Converter.hsv_to_grey_deep := local_comp

instance l_hsv_to_cmyk : Local Converter.hsv_to_cmyk := local_comp

instance l_hsv_to_hsi : Local Converter.hsv_to_hsi := local_comp

instance l_hsv_to_hcy : Local Converter.hsv_to_hcy := local_comp

instance l_hsv_to_xyz : Local Converter.hsv_to_xyz := local_comp

instance l_hsv_to_xyy : Local Converter.hsv_to_xyy := local_comp

instance l_hsv_to_cieluv : Local Converter.hsv_to_cieluv := local_comp

instance l_hsv_to_lab : Local Converter.hsv_to_lab := local_comp

instance l_hsv_to_lch_ab : Local Converter.hsv_to_lch_ab := local_comp

instance l_hsv_to_lch_uv : Local Converter.hsv_to_lch_uv := local_comp

instance l_hsl_to_rgb_true : Local Converter.hsl_to_rgb_true := local_comp

instance l_hsl_to_grey_true : Local Converter.hsl_to_grey_true := local_comp

instance l_hsl_to_grey_deep : Local Converter.hsl_to_grey_deep := local_comp

instance l_hsl_to_cmyk : Local Converter.hsl_to_cmyk := local_comp

instance l_hsl_to_hsi : Local Converter.hsl_to_hsi := local_comp

instance l_hsl_to_hcy : Local Converter.hsl_to_hcy := local_comp

instance l_hsl_to_xyz : Local Converter.hsl_to_xyz := local_comp

instance l_hsl_to_xyy : Local Converter.hsl_to_xyy := local_comp

instance l_hsl_to_cieluv : Local Converter.hsl_to_cieluv := local_comp

instance l_hsl_to_lab : Local Converter.hsl_to_lab := local_comp

instance l_hsl_to_lch_ab : Local Converter.hsl_to_lch_ab := local_comp

instance l_hsl_to_lch_uv : Local Converter.hsl_to_lch_uv := local_comp

instance l_hcy_to_rgb_true : Local Converter.hcy_to_rgb_true := local_comp

instance l_hcy_to_grey_true : Local Converter.hcy_to_grey_true := local_comp

instance l_hcy_to_grey_deep : Local Converter.hcy_to_grey_deep := local_comp

instance l_hcy_to_cmyk : Local Converter.hcy_to_cmyk := local_comp

instance l_hcy_to_hsi : Local Converter.hcy_to_hsi := local_comp

instance l_hcy_to_hsv : Local Converter.hcy_to_hsv := local_comp

instance l_hcy_to_hsl : Local Converter.hcy_to_hsl := local_comp

instance l_hcy_to_xyz : Local Converter.hcy_to_xyz := local_comp

instance l_hcy_to_xyy : Local Converter.hcy_to_xyy := local_comp

instance l_hcy_to_cieluv : Local Converter.hcy_to_cieluv := local_comp

instance l_hcy_to_lab : Local Converter.hcy_to_lab := local_comp

instance l_hcy_to_lch_ab : Local Converter.hcy_to_lch_ab := local_comp

instance l_hcy_to_lch_uv : Local Converter.hcy_to_lch_uv := local_comp

instance l_xyz_to_rgb_true : Local Converter.xyz_to_rgb_true := local_comp

instance l_xyz_to_grey_true : Local Converter.xyz_to_grey_true := local_comp

instance l_xyz_to_grey_deep : Local Converter.xyz_to_grey_deep := local_comp

instance l_xyz_to_cmyk : Local Converter.xyz_to_cmyk := local_comp

instance l_xyz_to_hsi : Local Converter.xyz_to_hsi := local_comp

instance l_xyz_to_hsv : Local Converter.xyz_to_hsv := local_comp

instance l_xyz_to_hsl : Local Converter.xyz_to_hsl := local_comp

instance l_xyz_to_hcy : Local Converter.xyz_to_hcy := local_comp

instance l_xyz_to_lch_ab : Local Converter.xyz_to_lch_ab := local_comp

instance l_xyz_to_lch_uv : Local Converter.xyz_to_lch_uv := local_comp

instance l_xyy_to_rgb_true : Local Converter.xyy_to_rgb_true := local_comp

instance l_xyy_to_rgb_deep : Local Converter.xyy_to_rgb_deep := local_comp

instance l_xyy_to_grey_true : Local Converter.xyy_to_grey_true := local_comp

instance l_xyy_to_grey_deep : Local Converter.xyy_to_grey_deep := local_comp

instance l_xyy_to_cmyk : Local Converter.xyy_to_cmyk := local_comp

instance l_xyy_to_hsi : Local Converter.xyy_to_hsi := local_comp

instance l_xyy_to_hsv : Local Converter.xyy_to_hsv := local_comp

instance l_xyy_to_hsl : Local Converter.xyy_to_hsl := local_comp

instance l_xyy_to_hcy : Local Converter.xyy_to_hcy := local_comp

instance l_xyy_to_cieluv : Local Converter.xyy_to_cieluv := local_comp

instance l_xyy_to_lab : Local Converter.xyy_to_lab := local_comp

instance l_xyy_to_lch_ab : Local Converter.xyy_to_lch_ab := local_comp

instance l_xyy_to_lch_uv : Local Converter.xyy_to_lch_uv := local_comp

instance l_cieluv_to_rgb_true : Local Converter.cieluv_to_rgb_true := local_comp

instance l_cieluv_to_rgb_deep : Local Converter.cieluv_to_rgb_deep := local_comp

instance l_cieluv_to_grey_true : Local Converter.cieluv_to_grey_true := local_comp

instance l_cieluv_to_grey_deep : Local Converter.cieluv_to_grey_deep := local_comp

instance l_cieluv_to_cmyk : Local Converter.cieluv_to_cmyk := local_comp

instance l_cieluv_to_hsi : Local Converter.cieluv_to_hsi := local_comp

instance l_cieluv_to_hsv : Local Converter.cieluv_to_hsv := local_comp

instance l_cieluv_to_hsl : Local Converter.cieluv_to_hsl := local_comp

instance l_cieluv_to_hcy : Local Converter.cieluv_to_hcy := local_comp

instance l_cieluv_to_xyy : Local Converter.cieluv_to_xyy := local_comp

instance l_cieluv_to_lab : Local Converter.cieluv_to_lab := local_comp

instance l_cieluv_to_lch_ab : Local Converter.cieluv_to_lch_ab := local_comp

instance l_lab_to_rgb_true : Local Converter.lab_to_rgb_true := local_comp

instance l_lab_to_rgb_deep : Local Converter.lab_to_rgb_deep := local_comp

instance l_lab_to_grey_true : Local Converter.lab_to_grey_true := local_comp

instance l_lab_to_grey_deep : Local Converter.lab_to_grey_deep := local_comp

instance l_lab_to_cmyk : Local Converter.lab_to_cmyk := local_comp

instance l_lab_to_hsi : Local Converter.lab_to_hsi := local_comp

instance l_lab_to_hsv : Local Converter.lab_to_hsv := local_comp

instance l_lab_to_hsl : Local Converter.lab_to_hsl := local_comp

instance l_lab_to_hcy : Local Converter.lab_to_hcy := local_comp

instance l_lab_to_xyy : Local Converter.lab_to_xyy := local_comp

instance l_lab_to_cieluv : Local Converter.lab_to_cieluv := local_comp

instance l_lab_to_lch_uv : Local Converter.lab_to_lch_uv := local_comp

instance l_lch_ab_to_rgb_true : Local Converter.lch_ab_to_rgb_true := local_comp

instance l_lch_ab_to_rgb_deep : Local Converter.lch_ab_to_rgb_deep := local_comp

instance l_lch_ab_to_grey_true : Local Converter.lch_ab_to_grey_true := local_comp

instance l_lch_ab_to_grey_deep : Local Converter.lch_ab_to_grey_deep := local_comp

instance l_lch_ab_to_cmyk : Local Converter.lch_ab_to_cmyk := local_comp

instance l_lch_ab_to_hsi : Local Converter.lch_ab_to_hsi := local_comp

instance l_lch_ab_to_hsv : Local Converter.lch_ab_to_hsv := local_comp

instance l_lch_ab_to_hsl : Local Converter.lch_ab_to_hsl := local_comp

instance l_lch_ab_to_hcy : Local Converter.lch_ab_to_hcy := local_comp

instance l_lch_ab_to_xyz : Local Converter.lch_ab_to_xyz := local_comp

instance l_lch_ab_to_xyy : Local Converter.lch_ab_to_xyy := local_comp

instance l_lch_ab_to_cieluv : Local Converter.lch_ab_to_cieluv := local_comp

instance l_lch_ab_to_lch_uv : Local Converter.lch_ab_to_lch_uv := local_comp

instance l_lch_uv_to_rgb_true : Local Converter.lch_uv_to_rgb_true := local_comp

instance l_lch_uv_to_rgb_deep : Local Converter.lch_uv_to_rgb_deep := local_comp

instance l_lch_uv_to_grey_true : Local Converter.lch_uv_to_grey_true := local_comp

instance l_lch_uv_to_grey_deep : Local Converter.lch_uv_to_grey_deep := local_comp

instance l_lch_uv_to_cmyk : Local Converter.lch_uv_to_cmyk := local_comp

instance l_lch_uv_to_hsi : Local Converter.lch_uv_to_hsi := local_comp

instance l_lch_uv_to_hsv : Local Converter.lch_uv_to_hsv := local_comp

instance l_lch_uv_to_hsl : Local Converter.lch_uv_to_hsl := local_comp

instance l_lch_uv_to_hcy : Local Converter.lch_uv_to_hcy := local_comp

instance l_lch_uv_to_xyz : Local Converter.lch_uv_to_xyz := local_comp

instance l_lch_uv_to_xyy : Local Converter.lch_uv_to_xyy := local_comp

instance l_lch_uv_to_lab : Local Converter.lch_uv_to_lab := local_comp

instance l_lch_uv_to_lch_ab : Local Converter.lch_uv_to_lch_ab := local_comp

instance l_to_rgb_true : Local Converter.to_rgb_true := ⟨fun _ _ _ hp => both_loadBind hp fun _ => by
  split <;> first | exact both_call hp | exact both_callBind hp fun _ _ _ _ hq => both_call hq | exact both_pure fun _ _ => .null⟩

instance l_to_rgb_deep : Local Converter.to_rgb_deep := ⟨fun _ _ _ hp => both_loadBind hp fun _ => by
  split <;> first | exact both_call hp | exact both_callBind hp fun _ _ _ _ hq => both_call hq | exact both_pure fun _ _ => .null⟩

instance l_to_grey_true : Local Converter.to_grey_true := ⟨fun _ _ _ hp => both_loadBind hp fun _ => by
  split <;> first | exact both_call hp | exact both_callBind hp fun _ _ _ _ hq => both_call hq | exact both_pure fun _ _ => .null⟩

instance l_to_grey_deep : Local Converter.to_grey_deep := ⟨fun _ _ _ hp => both_loadBind hp fun _ => by
  split <;> first | exact both_call hp | exact both_callBind hp fun _ _ _ _ hq => both_call hq | exact both_pure fun _ _ => .null⟩

instance l_to_cmyk : Local Converter.to_cmyk := ⟨fun _ _ _ hp => both_loadBind hp fun _ => by
  split <;> first | exact both_call hp | exact both_callBind hp fun _ _ _ _ hq => both_call hq | exact both_pure fun _ _ => .null⟩

instance l_to_hsi : Local Converter.to_hsi := ⟨fun _ _ _ hp => both_loadBind hp fun _ => by
  split <;> first | exact both_call hp | exact both_callBind hp fun _ _ _ _ hq => both_call hq | exact both_pure fun _ _ => .null⟩

instance l_to_hsv : Local Converter.to_hsv := ⟨fun _ _ _ hp => both_loadBind hp fun _ => by
  split <;> first | exact both_call hp | exact both_callBind hp fun _ _ _ _ hq => both_call hq | exact both_pure fun _ _ => .null⟩

instance l_to_hsl : Local Converter.to_hsl := ⟨fun _ _ _ hp => both_loadBind hp fun _ => by
  split <;> first | exact both_call hp | exact both_callBind hp fun _ _ _ _ hq => both_call hq | exact both_pure fun _ _ => .null⟩

instance l_to_hcy : Local Converter.to_hcy := ⟨fun _ _ _ hp => both_loadBind hp fun _ => by
  split <;> first | exact both_call hp | exact both_callBind hp fun _ _ _ _ hq => both_call hq | exact both_pure fun _ _ => .null⟩

instance l_to_xyz : Local Converter.to_xyz := ⟨fun _ _ _ hp => both_loadBind hp fun _ => by
  split <;> first | exact both_call hp | exact both_callBind hp fun _ _ _ _ hq => both_call hq | exact both_pure fun _ _ => .null⟩

instance l_to_xyy : Local Converter.to_xyy := ⟨fun _ _ _ hp => both_loadBind hp fun _ => by
  split <;> first | exact both_call hp | exact both_callBind hp fun _ _ _ _ hq => both_call hq | exact both_pure fun _ _ => .null⟩

instance l_to_cieluv : Local Converter.to_cieluv := ⟨fun _ _ _ hp => both_loadBind hp fun _ => by
  split <;> first | exact both_call hp | exact both_callBind hp fun _ _ _ _ hq => both_call hq | exact both_pure fun _ _ => .null⟩

instance l_to_lab : Local Converter.to_lab := ⟨fun _ _ _ hp => both_loadBind hp fun _ => by
  split <;> first | exact both_call hp | exact both_callBind hp fun _ _ _ _ hq => both_call hq | exact both_pure fun _ _ => .null⟩

instance l_to_lch_ab : Local Converter.to_lch_ab := ⟨fun _ _ _ hp => both_loadBind hp fun _ => by
  split <;> first | exact both_call hp | exact both_callBind hp fun _ _ _ _ hq => both_call hq | exact both_pure fun _ _ => .null⟩

instance l_to_lch_uv : Local Converter.to_lch_uv := ⟨fun _ _ _ hp => both_loadBind hp fun _ => by
  split <;> first | exact both_call hp | exact both_callBind hp fun _ _ _ _ hq => both_call hq | exact both_pure fun _ _ => .null⟩

theorem l_convertTo (t : ColorType) {R : Map} {p q : Ptr} (hp : PRel R p q) : Both R PRel (Converter.convertTo p t) (Converter.convertTo q t) := by
  cases t <;> simp only [Converter.convertTo] <;> first | exact both_call hp | exact both_pure fun _ _ => .null

end Loc
