import Verif.ConvLemmas

/-!
Proof machinery (not model, not statements): the value every conversion function computes, and proofs that the programs of `Converter` compute it
without other effects.  Generated along with `Converter`.
-/

open Outcome Fl Prog ObjectSpec

namespace Val
variable [FloatModel]

noncomputable def rgb_true_to_rgb_deep (_w : World) (c : Color) : Outcome Color := Leaf.rgb_true_to_rgb_deep c
noncomputable def rgb_true_to_grey_true (_w : World) (c : Color) : Outcome Color := Leaf.rgb_true_to_grey_true c
noncomputable def rgb_true_to_grey_deep (_w : World) (c : Color) : Outcome Color := do
  let g ← Leaf.rgb_true_to_grey_true c
  Leaf.grey_copy_to_deep c.space g
noncomputable def rgb_deep_to_rgb_true (_w : World) (c : Color) : Outcome Color := Leaf.rgb_deep_to_rgb_true c
noncomputable def rgb_deep_to_grey_deep (_w : World) (c : Color) : Outcome Color := Leaf.rgb_deep_to_grey_deep c
noncomputable def rgb_deep_to_cmyk (_w : World) (c : Color) : Outcome Color := Leaf.rgb_deep_to_cmyk c
noncomputable def rgb_deep_to_hsi (_w : World) (c : Color) : Outcome Color := Leaf.rgb_deep_to_hsi c
noncomputable def rgb_deep_to_hsv (_w : World) (c : Color) : Outcome Color := Leaf.rgb_deep_to_hsv c
noncomputable def rgb_deep_to_hsl (_w : World) (c : Color) : Outcome Color := Leaf.rgb_deep_to_hsl c
noncomputable def rgb_deep_to_hcy (_w : World) (c : Color) : Outcome Color := Leaf.rgb_deep_to_hcy c
noncomputable def rgb_deep_to_xyz (w : World) (c : Color) : Outcome Color := do
  let d ← Leaf.inverseGamma w c
  Leaf.linear_to_xyz w d
noncomputable def grey_true_to_rgb_true (_w : World) (c : Color) : Outcome Color := Leaf.grey_true_to_rgb_true c
noncomputable def grey_true_to_rgb_deep (_w : World) (c : Color) : Outcome Color := Leaf.grey_true_to_rgb_deep c
noncomputable def grey_true_to_grey_deep (_w : World) (c : Color) : Outcome Color := Leaf.grey_true_to_grey_deep c
noncomputable def grey_deep_to_rgb_true (_w : World) (c : Color) : Outcome Color := Leaf.grey_deep_to_rgb_true c
noncomputable def grey_deep_to_rgb_deep (_w : World) (c : Color) : Outcome Color := Leaf.grey_deep_to_rgb_deep c
noncomputable def grey_deep_to_grey_true (_w : World) (c : Color) : Outcome Color := Leaf.grey_deep_to_grey_true c
noncomputable def cmyk_to_rgb_deep (_w : World) (c : Color) : Outcome Color := Leaf.cmyk_to_rgb_deep c
noncomputable def hsi_to_rgb_deep (_w : World) (c : Color) : Outcome Color := Leaf.hsi_to_rgb_deep c
noncomputable def hsv_to_rgb_deep (_w : World) (c : Color) : Outcome Color := Leaf.hsv_to_rgb_deep c
noncomputable def hsv_to_hsl (_w : World) (c : Color) : Outcome Color := Leaf.hsv_to_hsl c
noncomputable def hsl_to_rgb_deep (_w : World) (c : Color) : Outcome Color := Leaf.hsl_to_rgb_deep c
noncomputable def hsl_to_hsv (_w : World) (c : Color) : Outcome Color := Leaf.hsl_to_hsv c
noncomputable def hcy_to_rgb_deep (_w : World) (c : Color) : Outcome Color := Leaf.hcy_to_rgb_deep c
noncomputable def xyz_to_rgb_deep (w : World) (c : Color) : Outcome Color := Leaf.xyz_to_rgb_deep w c
noncomputable def xyz_to_xyy (w : World) (c : Color) : Outcome Color := Leaf.xyz_to_xyy w c
noncomputable def xyz_to_cieluv (w : World) (c : Color) : Outcome Color := Leaf.xyz_to_cieluv w c
noncomputable def xyz_to_lab (w : World) (c : Color) : Outcome Color := Leaf.xyz_to_lab w c
noncomputable def xyy_to_xyz (_w : World) (c : Color) : Outcome Color := Leaf.xyy_to_xyz c
noncomputable def cieluv_to_xyz (w : World) (c : Color) : Outcome Color := Leaf.cieluv_to_xyz w c
noncomputable def cieluv_to_lch_uv (_w : World) (c : Color) : Outcome Color := Leaf.cieluv_to_lch_uv c
noncomputable def lab_to_xyz (w : World) (c : Color) : Outcome Color := Leaf.lab_to_xyz w c
noncomputable def lab_to_lch_ab (_w : World) (c : Color) : Outcome Color := Leaf.lab_to_lch_ab c
noncomputable def lch_ab_to_lab (_w : World) (c : Color) : Outcome Color := Leaf.lch_ab_to_lab c
noncomputable def lch_uv_to_cieluv (_w : World) (c : Color) : Outcome Color := Leaf.lch_uv_to_cieluv c
noncomputable def rgb_true_to_cmyk (w : World) (c : Color) : Outcome Color := rgb_true_to_rgb_deep w c >>= rgb_deep_to_cmyk w
noncomputable def rgb_true_to_hsi (w : World) (c : Color) : Outcome Color := rgb_true_to_rgb_deep w c >>= rgb_deep_to_hsi w
noncomputable def rgb_true_to_hsv (w : World) (c : Color) : Outcome Color := rgb_true_to_rgb_deep w c >>= rgb_deep_to_hsv w
noncomputable def rgb_true_to_hsl (w : World) (c : Color) : Outcome Color := rgb_true_to_rgb_deep w c >>= rgb_deep_to_hsl w
noncomputable def rgb_true_to_hcy (w : World) (c : Color) : Outcome Color := rgb_true_to_rgb_deep w c >>= rgb_deep_to_hcy w
noncomputable def rgb_true_to_xyz (w : World) (c : Color) : Outcome Color := rgb_true_to_rgb_deep w c >>= rgb_deep_to_xyz w
noncomputable def rgb_true_to_xyy (w : World) (c : Color) : Outcome Color := rgb_true_to_xyz w c >>= xyz_to_xyy w
noncomputable def rgb_true_to_cieluv (w : World) (c : Color) : Outcome Color := rgb_true_to_xyz w c >>= xyz_to_cieluv w
noncomputable def rgb_deep_to_lab (w : World) (c : Color) : Outcome Color := rgb_deep_to_xyz w c >>= xyz_to_lab w
noncomputable def rgb_true_to_lab (w : World) (c : Color) : Outcome Color := rgb_true_to_rgb_deep w c >>= rgb_deep_to_lab w
noncomputable def rgb_true_to_lch_ab (w : World) (c : Color) : Outcome Color := rgb_true_to_lab w c >>= lab_to_lch_ab w
noncomputable def rgb_true_to_lch_uv (w : World) (c : Color) : Outcome Color := rgb_true_to_cieluv w c >>= cieluv_to_lch_uv w
noncomputable def rgb_deep_to_grey_true (w : World) (c : Color) : Outcome Color := rgb_deep_to_rgb_true w c >>= rgb_true_to_grey_true w
noncomputable def rgb_deep_to_xyy (w : World) (c : Color) : Outcome Color := rgb_deep_to_xyz w c >>= xyz_to_xyy w
noncomputable def rgb_deep_to_cieluv (w : World) (c : Color) : Outcome Color := rgb_deep_to_xyz w c >>= xyz_to_cieluv w
noncomputable def rgb_deep_to_lch_ab (w : World) (c : Color) : Outcome Color := rgb_deep_to_lab w c >>= lab_to_lch_ab w
noncomputable def rgb_deep_to_lch_uv (w : World) (c : Color) : Outcome Color := rgb_deep_to_cieluv w c >>= cieluv_to_lch_uv w
noncomputable def grey_true_to_cmyk (w : World) (c : Color) : Outcome Color := grey_true_to_rgb_deep w c >>= rgb_deep_to_cmyk w
noncomputable def grey_true_to_hsi (w : World) (c : Color) : Outcome Color := grey_true_to_rgb_deep w c >>= rgb_deep_to_hsi w
noncomputable def grey_true_to_hsv (w : World) (c : Color) : Outcome Color := grey_true_to_rgb_deep w c >>= rgb_deep_to_hsv w
noncomputable def grey_true_to_hsl (w : World) (c : Color) : Outcome Color := grey_true_to_rgb_deep w c >>= rgb_deep_to_hsl w
noncomputable def grey_true_to_hcy (w : World) (c : Color) : Outcome Color := grey_true_to_rgb_deep w c >>= rgb_deep_to_hcy w
noncomputable def grey_true_to_xyz (w : World) (c : Color) : Outcome Color := grey_true_to_rgb_deep w c >>= rgb_deep_to_xyz w
noncomputable def grey_true_to_xyy (w : World) (c : Color) : Outcome Color := grey_true_to_xyz w c >>= xyz_to_xyy w
noncomputable def grey_true_to_cieluv (w : World) (c : Color) : Outcome Color := grey_true_to_xyz w c >>= xyz_to_cieluv w
noncomputable def grey_true_to_lab (w : World) (c : Color) : Outcome Color := grey_true_to_rgb_deep w c >>= rgb_deep_to_lab w
noncomputable def grey_true_to_lch_ab (w : World) (c : Color) : Outcome Color := grey_true_to_lab w c >>= lab_to_lch_ab w
noncomputable def grey_true_to_lch_uv (w : World) (c : Color) : Outcome Color := grey_true_to_cieluv w c >>= cieluv_to_lch_uv w
noncomputable def grey_deep_to_cmyk (w : World) (c : Color) : Outcome Color := grey_deep_to_rgb_deep w c >>= rgb_deep_to_cmyk w
noncomputable def grey_deep_to_hsi (w : World) (c : Color) : Outcome Color := grey_deep_to_rgb_deep w c >>= rgb_deep_to_hsi w
noncomputable def grey_deep_to_hsv (w : World) (c : Color) : Outcome Color := grey_deep_to_rgb_deep w c >>= rgb_deep_to_hsv w
noncomputable def grey_deep_to_hsl (w : World) (c : Color) : Outcome Color := grey_deep_to_rgb_deep w c >>= rgb_deep_to_hsl w
noncomputable def grey_deep_to_hcy (w : World) (c : Color) : Outcome Color := grey_deep_to_rgb_deep w c >>= rgb_deep_to_hcy w
noncomputable def grey_deep_to_xyz (w : World) (c : Color) : Outcome Color := grey_deep_to_rgb_deep w c >>= rgb_deep_to_xyz w
noncomputable def grey_deep_to_xyy (w : World) (c : Color) : Outcome Color := grey_deep_to_xyz w c >>= xyz_to_xyy w
noncomputable def grey_deep_to_cieluv (w : World) (c : Color) : Outcome Color := grey_deep_to_xyz w c >>= xyz_to_cieluv w
noncomputable def grey_deep_to_lab (w : World) (c : Color) : Outcome Color := grey_deep_to_rgb_deep w c >>= rgb_deep_to_lab w
noncomputable def grey_deep_to_lch_ab (w : World) (c : Color) : Outcome Color := grey_deep_to_lab w c >>= lab_to_lch_ab w
noncomputable def grey_deep_to_lch_uv (w : World) (c : Color) : Outcome Color := grey_deep_to_cieluv w c >>= cieluv_to_lch_uv w
noncomputable def cmyk_to_rgb_true (w : World) (c : Color) : Outcome Color := cmyk_to_rgb_deep w c >>= rgb_deep_to_rgb_true w
noncomputable def cmyk_to_grey_true (w : World) (c : Color) : Outcome Color := cmyk_to_rgb_deep w c >>= rgb_deep_to_grey_true w
noncomputable def cmyk_to_grey_deep (w : World) (c : Color) : Outcome Color := cmyk_to_rgb_deep w c >>= rgb_deep_to_grey_deep w
noncomputable def cmyk_to_hsi (w : World) (c : Color) : Outcome Color := cmyk_to_rgb_deep w c >>= rgb_deep_to_hsi w
noncomputable def cmyk_to_hsv (w : World) (c : Color) : Outcome Color := cmyk_to_rgb_deep w c >>= rgb_deep_to_hsv w
noncomputable def cmyk_to_hsl (w : World) (c : Color) : Outcome Color := cmyk_to_rgb_deep w c >>= rgb_deep_to_hsl w
noncomputable def cmyk_to_hcy (w : World) (c : Color) : Outcome Color := cmyk_to_rgb_deep w c >>= rgb_deep_to_hcy w
noncomputable def cmyk_to_xyz (w : World) (c : Color) : Outcome Color := cmyk_to_rgb_deep w c >>= rgb_deep_to_xyz w
noncomputable def cmyk_to_xyy (w : World) (c : Color) : Outcome Color := cmyk_to_xyz w c >>= xyz_to_xyy w
noncomputable def cmyk_to_cieluv (w : World) (c : Color) : Outcome Color := cmyk_to_xyz w c >>= xyz_to_cieluv w
noncomputable def cmyk_to_lab (w : World) (c : Color) : Outcome Color := cmyk_to_rgb_deep w c >>= rgb_deep_to_lab w
noncomputable def cmyk_to_lch_ab (w : World) (c : Color) : Outcome Color := cmyk_to_lab w c >>= lab_to_lch_ab w
noncomputable def cmyk_to_lch_uv (w : World) (c : Color) : Outcome Color := cmyk_to_cieluv w c >>= cieluv_to_lch_uv w
noncomputable def hsi_to_rgb_true (w : World) (c : Color) : Outcome Color := hsi_to_rgb_deep w c >>= rgb_deep_to_rgb_true w
noncomputable def hsi_to_grey_true (w : World) (c : Color) : Outcome Color := hsi_to_rgb_deep w c >>= rgb_deep_to_grey_true w
noncomputable def hsi_to_grey_deep (w : World) (c : Color) : Outcome Color := hsi_to_rgb_deep w c >>= rgb_deep_to_grey_deep w
noncomputable def hsi_to_cmyk (w : World) (c : Color) : Outcome Color := hsi_to_rgb_deep w c >>= rgb_deep_to_cmyk w
noncomputable def hsi_to_hsv (w : World) (c : Color) : Outcome Color := hsi_to_rgb_deep w c >>= rgb_deep_to_hsv w
noncomputable def hsi_to_hsl (w : World) (c : Color) : Outcome Color := hsi_to_rgb_deep w c >>= rgb_deep_to_hsl w
noncomputable def hsi_to_hcy (w : World) (c : Color) : Outcome Color := hsi_to_rgb_deep w c >>= rgb_deep_to_hcy w
noncomputable def hsi_to_xyz (w : World) (c : Color) : Outcome Color := hsi_to_rgb_deep w c >>= rgb_deep_to_xyz w
noncomputable def hsi_to_xyy (w : World) (c : Color) : Outcome Color := hsi_to_rgb_deep w c >>= rgb_deep_to_xyy w
noncomputable def hsi_to_cieluv (w : World) (c : Color) : Outcome Color := hsi_to_rgb_deep w c >>= rgb_deep_to_cieluv w
noncomputable def hsi_to_lab (w : World) (c : Color) : Outcome Color := hsi_to_rgb_deep w c >>= rgb_deep_to_lab w
noncomputable def hsi_to_lch_ab (w : World) (c : Color) : Outcome Color := hsi_to_rgb_deep w c >>= rgb_deep_to_lch_ab w
noncomputable def hsi_to_lch_uv (w : World) (c : Color) : Outcome Color := hsi_to_rgb_deep w c >>= rgb_deep_to_lch_uv w
noncomputable def hsv_to_rgb_true (w : World) (c : Color) : Outcome Color := hsv_to_rgb_deep w c >>= rgb_deep_to_rgb_true w
noncomputable def hsv_to_grey_true (w : World) (c : Color) : Outcome Color := hsv_to_rgb_deep w c >>= rgb_deep_to_grey_true w
noncomputable def hsv_to_grey_deep (w : World) (c : Color) : Outcome Color := hsv_to_rgb_deep w c >>= rgb_deep_to_grey_deep w
noncomputable def hsv_to_cmyk (w : World) (c : Color) : Outcome Color := hsv_to_rgb_deep w c >>= rgb_deep_to_cmyk w
noncomputable def hsv_to_hsi (w : World) (c : Color) : Outcome Color := hsv_to_rgb_deep w c >>= rgb_deep_to_hsi w
noncomputable def hsv_to_hcy (w : World) (c : Color) : Outcome Color := hsv_to_rgb_deep w c >>= rgb_deep_to_hcy w
noncomputable def hsv_to_xyz (w : World) (c : Color) : Outcome Color := hsv_to_rgb_deep w c >>= rgb_deep_to_xyz w
noncomputable def hsv_to_xyy (w : World) (c : Color) : Outcome Color := hsv_to_xyz w c >>= xyz_to_xyy w
noncomputable def hsv_to_cieluv (w : World) (c : Color) : Outcome Color := hsv_to_xyz w c >>= xyz_to_cieluv w
noncomputable def hsv_to_lab (w : World) (c : Color) : Outcome Color := hsv_to_rgb_deep w c >>= rgb_deep_to_lab w
noncomputable def hsv_to_lch_ab (w : World) (c : Color) : Outcome Color := hsv_to_lab w c >>= lab_to_lch_ab w
noncomputable def hsv_to_lch_uv (w : World) (c : Color) : Outcome Color := hsv_to_cieluv w c >>= cieluv_to_lch_uv w
noncomputable def hsl_to_rgb_true (w : World) (c : Color) : Outcome Color := hsl_to_rgb_deep w c >>= rgb_deep_to_rgb_true w
noncomputable def hsl_to_grey_true (w : World) (c : Color) : Outcome Color := hsl_to_rgb_deep w c >>= rgb_deep_to_grey_true w
noncomputable def hsl_to_grey_deep (w : World) (c : Color) : Outcome Color := hsl_to_rgb_deep w c >>= rgb_deep_to_grey_deep w
noncomputable def hsl_to_cmyk (w : World) (c : Color) : Outcome Color := hsl_to_rgb_deep w c >>= rgb_deep_to_cmyk w
noncomputable def hsl_to_hsi (w : World) (c : Color) : Outcome Color := hsl_to_rgb_deep w c >>= rgb_deep_to_hsi w
noncomputable def hsl_to_hcy (w : World) (c : Color) : Outcome Color := hsl_to_rgb_deep w c >>= rgb_deep_to_hcy w
noncomputable def hsl_to_xyz (w : World) (c : Color) : Outcome Color := hsl_to_rgb_deep w c >>= rgb_deep_to_xyz w
noncomputable def hsl_to_xyy (w : World) (c : Color) : Outcome Color := hsl_to_xyz w c >>= xyz_to_xyy w
noncomputable def hsl_to_cieluv (w : World) (c : Color) : Outcome Color := hsl_to_xyz w c >>= xyz_to_cieluv w
noncomputable def hsl_to_lab (w : World) (c : Color) : Outcome Color := hsl_to_rgb_deep w c >>= rgb_deep_to_lab w
noncomputable def hsl_to_lch_ab (w : World) (c : Color) : Outcome Color := hsl_to_lab w c >>= lab_to_lch_ab w
noncomputable def hsl_to_lch_uv (w : World) (c : Color) : Outcome Color := hsl_to_cieluv w c >>= cieluv_to_lch_uv w
noncomputable def hcy_to_rgb_true (w : World) (c : Color) : Outcome Color := hcy_to_rgb_deep w c >>= rgb_deep_to_rgb_true w
noncomputable def hcy_to_grey_true (w : World) (c : Color) : Outcome Color := hcy_to_rgb_deep w c >>= rgb_deep_to_grey_true w
noncomputable def hcy_to_grey_deep (w : World) (c : Color) : Outcome Color := hcy_to_rgb_deep w c >>= rgb_deep_to_grey_deep w
noncomputable def hcy_to_cmyk (w : World) (c : Color) : Outcome Color := hcy_to_rgb_deep w c >>= rgb_deep_to_cmyk w
noncomputable def hcy_to_hsi (w : World) (c : Color) : Outcome Color := hcy_to_rgb_deep w c >>= rgb_deep_to_hsi w
noncomputable def hcy_to_hsv (w : World) (c : Color) : Outcome Color := hcy_to_rgb_deep w c >>= rgb_deep_to_hsv w
noncomputable def hcy_to_hsl (w : World) (c : Color) : Outcome Color := hcy_to_rgb_deep w c >>= rgb_deep_to_hsl w
noncomputable def hcy_to_xyz (w : World) (c : Color) : Outcome Color := hcy_to_rgb_deep w c >>= rgb_deep_to_xyz w
noncomputable def hcy_to_xyy (w : World) (c : Color) : Outcome Color := hcy_to_rgb_deep w c >>= rgb_deep_to_xyy w
noncomputable def hcy_to_cieluv (w : World) (c : Color) : Outcome Color := hcy_to_rgb_deep w c >>= rgb_deep_to_cieluv w
noncomputable def hcy_to_lab (w : World) (c : Color) : Outcome Color := hcy_to_rgb_deep w c >>= rgb_deep_to_lab w
noncomputable def hcy_to_lch_ab (w : World) (c : Color) : Outcome Color := hcy_to_rgb_deep w c >>= rgb_deep_to_lch_ab w
noncomputable def hcy_to_lch_uv (w : World) (c : Color) : Outcome Color := hcy_to_rgb_deep w c >>= rgb_deep_to_lch_uv w
noncomputable def xyz_to_rgb_true (w : World) (c : Color) : Outcome Color := xyz_to_rgb_deep w c >>= rgb_deep_to_rgb_true w
noncomputable def xyz_to_grey_true (w : World) (c : Color) : Outcome Color := xyz_to_rgb_deep w c >>= rgb_deep_to_grey_true w
noncomputable def xyz_to_grey_deep (w : World) (c : Color) : Outcome Color := xyz_to_rgb_deep w c >>= rgb_deep_to_grey_deep w
noncomputable def xyz_to_cmyk (w : World) (c : Color) : Outcome Color := xyz_to_rgb_deep w c >>= rgb_deep_to_cmyk w
noncomputable def xyz_to_hsi (w : World) (c : Color) : Outcome Color := xyz_to_rgb_deep w c >>= rgb_deep_to_hsi w
noncomputable def xyz_to_hsv (w : World) (c : Color) : Outcome Color := xyz_to_rgb_deep w c >>= rgb_deep_to_hsv w
noncomputable def xyz_to_hsl (w : World) (c : Color) : Outcome Color := xyz_to_rgb_deep w c >>= rgb_deep_to_hsl w
noncomputable def xyz_to_hcy (w : World) (c : Color) : Outcome Color := xyz_to_rgb_deep w c >>= rgb_deep_to_hcy w
noncomputable def xyz_to_lch_ab (w : World) (c : Color) : Outcome Color := xyz_to_lab w c >>= lab_to_lch_ab w
noncomputable def xyz_to_lch_uv (w : World) (c : Color) : Outcome Color := xyz_to_cieluv w c >>= cieluv_to_lch_uv w
noncomputable def xyy_to_rgb_true (w : World) (c : Color) : Outcome Color := xyy_to_xyz w c >>= xyz_to_rgb_true w
noncomputable def xyy_to_rgb_deep (w : World) (c : Color) : Outcome Color := xyy_to_xyz w c >>= xyz_to_rgb_deep w
noncomputable def xyy_to_grey_true (w : World) (c : Color) : Outcome Color := xyy_to_xyz w c >>= xyz_to_grey_true w
noncomputable def xyy_to_grey_deep (w : World) (c : Color) : Outcome Color := xyy_to_xyz w c >>= xyz_to_grey_deep w
noncomputable def xyy_to_cmyk (w : World) (c : Color) : Outcome Color := xyy_to_xyz w c >>= xyz_to_cmyk w
noncomputable def xyy_to_hsi (w : World) (c : Color) : Outcome Color := xyy_to_xyz w c >>= xyz_to_hsi w
noncomputable def xyy_to_hsv (w : World) (c : Color) : Outcome Color := xyy_to_xyz w c >>= xyz_to_hsv w
noncomputable def xyy_to_hsl (w : World) (c : Color) : Outcome Color := xyy_to_xyz w c >>= xyz_to_hsl w
noncomputable def xyy_to_hcy (w : World) (c : Color) : Outcome Color := xyy_to_xyz w c >>= xyz_to_hcy w
noncomputable def xyy_to_cieluv (w : World) (c : Color) : Outcome Color := xyy_to_xyz w c >>= xyz_to_cieluv w
noncomputable def xyy_to_lab (w : World) (c : Color) : Outcome Color := xyy_to_xyz w c >>= xyz_to_lab w
noncomputable def xyy_to_lch_ab (w : World) (c : Color) : Outcome Color := xyy_to_lab w c >>= lab_to_lch_ab w
noncomputable def xyy_to_lch_uv (w : World) (c : Color) : Outcome Color := xyy_to_cieluv w c >>= cieluv_to_lch_uv w
noncomputable def cieluv_to_rgb_true (w : World) (c : Color) : Outcome Color := cieluv_to_xyz w c >>= xyz_to_rgb_true w
noncomputable def cieluv_to_rgb_deep (w : World) (c : Color) : Outcome Color := cieluv_to_xyz w c >>= xyz_to_rgb_deep w
noncomputable def cieluv_to_grey_true (w : World) (c : Color) : Outcome Color := cieluv_to_xyz w c >>= xyz_to_grey_true w
noncomputable def cieluv_to_grey_deep (w : World) (c : Color) : Outcome Color := cieluv_to_xyz w c >>= xyz_to_grey_deep w
noncomputable def cieluv_to_cmyk (w : World) (c : Color) : Outcome Color := cieluv_to_xyz w c >>= xyz_to_cmyk w
noncomputable def cieluv_to_hsi (w : World) (c : Color) : Outcome Color := cieluv_to_xyz w c >>= xyz_to_hsi w
noncomputable def cieluv_to_hsv (w : World) (c : Color) : Outcome Color := cieluv_to_xyz w c >>= xyz_to_hsv w
noncomputable def cieluv_to_hsl (w : World) (c : Color) : Outcome Color := cieluv_to_xyz w c >>= xyz_to_hsl w
noncomputable def cieluv_to_hcy (w : World) (c : Color) : Outcome Color := cieluv_to_xyz w c >>= xyz_to_hcy w
noncomputable def cieluv_to_xyy (w : World) (c : Color) : Outcome Color := cieluv_to_xyz w c >>= xyz_to_xyy w
noncomputable def cieluv_to_lab (w : World) (c : Color) : Outcome Color := cieluv_to_xyz w c >>= xyz_to_lab w
noncomputable def cieluv_to_lch_ab (w : World) (c : Color) : Outcome Color := cieluv_to_lab w c >>= lab_to_lch_ab w
noncomputable def lab_to_rgb_true (w : World) (c : Color) : Outcome Color := lab_to_xyz w c >>= xyz_to_rgb_true w
noncomputable def lab_to_rgb_deep (w : World) (c : Color) : Outcome Color := lab_to_xyz w c >>= xyz_to_rgb_deep w
noncomputable def lab_to_grey_true (w : World) (c : Color) : Outcome Color := lab_to_xyz w c >>= xyz_to_grey_true w
noncomputable def lab_to_grey_deep (w : World) (c : Color) : Outcome Color := lab_to_xyz w c >>= xyz_to_grey_deep w
noncomputable def lab_to_cmyk (w : World) (c : Color) : Outcome Color := lab_to_xyz w c >>= xyz_to_cmyk w
noncomputable def lab_to_hsi (w : World) (c : Color) : Outcome Color := lab_to_xyz w c >>= xyz_to_hsi w
noncomputable def lab_to_hsv (w : World) (c : Color) : Outcome Color := lab_to_xyz w c >>= xyz_to_hsv w
noncomputable def lab_to_hsl (w : World) (c : Color) : Outcome Color := lab_to_xyz w c >>= xyz_to_hsl w
noncomputable def lab_to_hcy (w : World) (c : Color) : Outcome Color := lab_to_xyz w c >>= xyz_to_hcy w
noncomputable def lab_to_xyy (w : World) (c : Color) : Outcome Color := lab_to_xyz w c >>= xyz_to_xyy w
noncomputable def lab_to_cieluv (w : World) (c : Color) : Outcome Color := lab_to_xyz w c >>= xyz_to_cieluv w
noncomputable def lab_to_lch_uv (w : World) (c : Color) : Outcome Color := lab_to_cieluv w c >>= cieluv_to_lch_uv w
noncomputable def lch_ab_to_rgb_true (w : World) (c : Color) : Outcome Color := lch_ab_to_lab w c >>= lab_to_rgb_true w
noncomputable def lch_ab_to_rgb_deep (w : World) (c : Color) : Outcome Color := lch_ab_to_lab w c >>= lab_to_rgb_deep w
noncomputable def lch_ab_to_grey_true (w : World) (c : Color) : Outcome Color := lch_ab_to_lab w c >>= lab_to_grey_true w
noncomputable def lch_ab_to_grey_deep (w : World) (c : Color) : Outcome Color := lch_ab_to_lab w c >>= lab_to_grey_deep w
noncomputable def lch_ab_to_cmyk (w : World) (c : Color) : Outcome Color := lch_ab_to_lab w c >>= lab_to_cmyk w
noncomputable def lch_ab_to_hsi (w : World) (c : Color) : Outcome Color := lch_ab_to_lab w c >>= lab_to_hsi w
noncomputable def lch_ab_to_hsv (w : World) (c : Color) : Outcome Color := lch_ab_to_lab w c >>= lab_to_hsv w
noncomputable def lch_ab_to_hsl (w : World) (c : Color) : Outcome Color := lch_ab_to_lab w c >>= lab_to_hsl w
noncomputable def lch_ab_to_hcy (w : World) (c : Color) : Outcome Color := lch_ab_to_lab w c >>= lab_to_hcy w
noncomputable def lch_ab_to_xyz (w : World) (c : Color) : Outcome Color := lch_ab_to_lab w c >>= lab_to_xyz w
noncomputable def lch_ab_to_xyy (w : World) (c : Color) : Outcome Color := lch_ab_to_lab w c >>= lab_to_xyy w
noncomputable def lch_ab_to_cieluv (w : World) (c : Color) : Outcome Color := lch_ab_to_lab w c >>= lab_to_cieluv w
noncomputable def lch_ab_to_lch_uv (w : World) (c : Color) : Outcome Color := lch_ab_to_cieluv w c >>= cieluv_to_lch_uv w
noncomputable def lch_uv_to_rgb_true (w : World) (c : Color) : Outcome Color := lch_uv_to_cieluv w c >>= cieluv_to_rgb_true w
noncomputable def lch_uv_to_rgb_deep (w : World) (c : Color) : Outcome Color := lch_uv_to_cieluv w c >>= cieluv_to_rgb_deep w
noncomputable def lch_uv_to_grey_true (w : World) (c : Color) : Outcome Color := lch_uv_to_cieluv w c >>= cieluv_to_grey_true w
noncomputable def lch_uv_to_grey_deep (w : World) (c : Color) : Outcome Color := lch_uv_to_cieluv w c >>= cieluv_to_grey_deep w
noncomputable def lch_uv_to_cmyk (w : World) (c : Color) : Outcome Color := lch_uv_to_cieluv w c >>= cieluv_to_cmyk w
noncomputable def lch_uv_to_hsi (w : World) (c : Color) : Outcome Color := lch_uv_to_cieluv w c >>= cieluv_to_hsi w
noncomputable def lch_uv_to_hsv (w : World) (c : Color) : Outcome Color := lch_uv_to_cieluv w c >>= cieluv_to_hsv w
noncomputable def lch_uv_to_hsl (w : World) (c : Color) : Outcome Color := lch_uv_to_cieluv w c >>= cieluv_to_hsl w
noncomputable def lch_uv_to_hcy (w : World) (c : Color) : Outcome Color := lch_uv_to_cieluv w c >>= cieluv_to_hcy w
noncomputable def lch_uv_to_xyz (w : World) (c : Color) : Outcome Color := lch_uv_to_cieluv w c >>= cieluv_to_xyz w
noncomputable def lch_uv_to_xyy (w : World) (c : Color) : Outcome Color := lch_uv_to_cieluv w c >>= cieluv_to_xyy w
noncomputable def lch_uv_to_lab (w : World) (c : Color) : Outcome Color := lch_uv_to_cieluv w c >>= cieluv_to_lab w
noncomputable def lch_uv_to_lch_ab (w : World) (c : Color) : Outcome Color := lch_uv_to_cieluv w c >>= cieluv_to_lch_ab w

/-- The input after `rgb_deep_to_xyz` and the functions that start with it. -/
noncomputable def linearised (w : World) (c : Color) : Color :=
  match Leaf.inverseGamma w c with
  | ok d => d
  | _ => c


noncomputable def from_rgb_true : ColorType → World → Color → Outcome Color
  | .rgbTrue => fun _ c => ok c
  | .rgbDeep => rgb_true_to_rgb_deep
  | .greyTrue => rgb_true_to_grey_true
  | .greyDeep => rgb_true_to_grey_deep
  | .cmyk => rgb_true_to_cmyk
  | .hsi => rgb_true_to_hsi
  | .hsv => rgb_true_to_hsv
  | .hsl => rgb_true_to_hsl
  | .hcy => rgb_true_to_hcy
  | .xyz => rgb_true_to_xyz
  | .xyy => rgb_true_to_xyy
  | .cieluv => rgb_true_to_cieluv
  | .lab => rgb_true_to_lab
  | .lchAb => rgb_true_to_lch_ab
  | .lchUv => rgb_true_to_lch_uv
  | .undefined => fun _ _ => ub

noncomputable def from_rgb_deep : ColorType → World → Color → Outcome Color
  | .rgbTrue => rgb_deep_to_rgb_true
  | .rgbDeep => fun _ c => ok c
  | .greyTrue => rgb_deep_to_grey_true
  | .greyDeep => rgb_deep_to_grey_deep
  | .cmyk => rgb_deep_to_cmyk
  | .hsi => rgb_deep_to_hsi
  | .hsv => rgb_deep_to_hsv
  | .hsl => rgb_deep_to_hsl
  | .hcy => rgb_deep_to_hcy
  | .xyz => rgb_deep_to_xyz
  | .xyy => rgb_deep_to_xyy
  | .cieluv => rgb_deep_to_cieluv
  | .lab => rgb_deep_to_lab
  | .lchAb => rgb_deep_to_lch_ab
  | .lchUv => rgb_deep_to_lch_uv
  | .undefined => fun _ _ => ub

noncomputable def from_grey_true : ColorType → World → Color → Outcome Color
  | .rgbTrue => grey_true_to_rgb_true
  | .rgbDeep => grey_true_to_rgb_deep
  | .greyTrue => fun _ c => ok c
  | .greyDeep => grey_true_to_grey_deep
  | .cmyk => grey_true_to_cmyk
  | .hsi => grey_true_to_hsi
  | .hsv => grey_true_to_hsv
  | .hsl => grey_true_to_hsl
  | .hcy => grey_true_to_hcy
  | .xyz => grey_true_to_xyz
  | .xyy => grey_true_to_xyy
  | .cieluv => grey_true_to_cieluv
  | .lab => grey_true_to_lab
  | .lchAb => grey_true_to_lch_ab
  | .lchUv => grey_true_to_lch_uv
  | .undefined => fun _ _ => ub

noncomputable def from_grey_deep : ColorType → World → Color → Outcome Color
  | .rgbTrue => grey_deep_to_rgb_true
  | .rgbDeep => grey_deep_to_rgb_deep
  | .greyTrue => grey_deep_to_grey_true
  | .greyDeep => fun _ c => ok c
  | .cmyk => grey_deep_to_cmyk
  | .hsi => grey_deep_to_hsi
  | .hsv => grey_deep_to_hsv
  | .hsl => grey_deep_to_hsl
  | .hcy => grey_deep_to_hcy
  | .xyz => grey_deep_to_xyz
  | .xyy => grey_deep_to_xyy
  | .cieluv => grey_deep_to_cieluv
  | .lab => grey_deep_to_lab
  | .lchAb => grey_deep_to_lch_ab
  | .lchUv => grey_deep_to_lch_uv
  | .undefined => fun _ _ => ub

noncomputable def from_cmyk : ColorType → World → Color → Outcome Color
  | .rgbTrue => cmyk_to_rgb_true
  | .rgbDeep => cmyk_to_rgb_deep
  | .greyTrue => cmyk_to_grey_true
  | .greyDeep => cmyk_to_grey_deep
  | .cmyk => fun _ c => ok c
  | .hsi => cmyk_to_hsi
  | .hsv => cmyk_to_hsv
  | .hsl => cmyk_to_hsl
  | .hcy => cmyk_to_hcy
  | .xyz => cmyk_to_xyz
  | .xyy => cmyk_to_xyy
  | .cieluv => cmyk_to_cieluv
  | .lab => cmyk_to_lab
  | .lchAb => cmyk_to_lch_ab
  | .lchUv => cmyk_to_lch_uv
  | .undefined => fun _ _ => ub

noncomputable def from_hsi : ColorType → World → Color → Outcome Color
  | .rgbTrue => hsi_to_rgb_true
  | .rgbDeep => hsi_to_rgb_deep
  | .greyTrue => hsi_to_grey_true
  | .greyDeep => hsi_to_grey_deep
  | .cmyk => hsi_to_cmyk
  | .hsi => fun _ c => ok c
  | .hsv => hsi_to_hsv
  | .hsl => hsi_to_hsl
  | .hcy => hsi_to_hcy
  | .xyz => hsi_to_xyz
  | .xyy => hsi_to_xyy
  | .cieluv => hsi_to_cieluv
  | .lab => hsi_to_lab
  | .lchAb => hsi_to_lch_ab
  | .lchUv => hsi_to_lch_uv
  | .undefined => fun _ _ => ub

noncomputable def from_hsv : ColorType → World → Color → Outcome Color
  | .rgbTrue => hsv_to_rgb_true
  | .rgbDeep => hsv_to_rgb_deep
  | .greyTrue => hsv_to_grey_true
  | .greyDeep => hsv_to_grey_deep
  | .cmyk => hsv_to_cmyk
  | .hsi => hsv_to_hsi
  | .hsv => fun _ c => ok c
  | .hsl => hsv_to_hsl
  | .hcy => hsv_to_hcy
  | .xyz => hsv_to_xyz
  | .xyy => hsv_to_xyy
  | .cieluv => hsv_to_cieluv
  | .lab => hsv_to_lab
  | .lchAb => hsv_to_lch_ab
  | .lchUv => hsv_to_lch_uv
  | .undefined => fun _ _ => ub

noncomputable def from_hsl : ColorType → World → Color → Outcome Color
  | .rgbTrue => hsl_to_rgb_true
  | .rgbDeep => hsl_to_rgb_deep
  | .greyTrue => hsl_to_grey_true
  | .greyDeep => hsl_to_grey_deep
  | .cmyk => hsl_to_cmyk
  | .hsi => hsl_to_hsi
  | .hsv => hsl_to_hsv
  | .hsl => fun _ c => ok c
  | .hcy => hsl_to_hcy
  | .xyz => hsl_to_xyz
  | .xyy => hsl_to_xyy
  | .cieluv => hsl_to_cieluv
  | .lab => hsl_to_lab
  | .lchAb => hsl_to_lch_ab
  | .lchUv => hsl_to_lch_uv
  | .undefined => fun _ _ => ub

noncomputable def from_hcy : ColorType → World → Color → Outcome Color
  | .rgbTrue => hcy_to_rgb_true
  | .rgbDeep => hcy_to_rgb_deep
  | .greyTrue => hcy_to_grey_true
  | .greyDeep => hcy_to_grey_deep
  | .cmyk => hcy_to_cmyk
  | .hsi => hcy_to_hsi
  | .hsv => hcy_to_hsv
  | .hsl => hcy_to_hsl
  | .hcy => fun _ c => ok c
  | .xyz => hcy_to_xyz
  | .xyy => hcy_to_xyy
  | .cieluv => hcy_to_cieluv
  | .lab => hcy_to_lab
  | .lchAb => hcy_to_lch_ab
  | .lchUv => hcy_to_lch_uv
  | .undefined => fun _ _ => ub

noncomputable def from_xyz : ColorType → World → Color → Outcome Color
  | .rgbTrue => xyz_to_rgb_true
  | .rgbDeep => xyz_to_rgb_deep
  | .greyTrue => xyz_to_grey_true
  | .greyDeep => xyz_to_grey_deep
  | .cmyk => xyz_to_cmyk
  | .hsi => xyz_to_hsi
  | .hsv => xyz_to_hsv
  | .hsl => xyz_to_hsl
  | .hcy => xyz_to_hcy
  | .xyz => fun _ c => ok c
  | .xyy => xyz_to_xyy
  | .cieluv => xyz_to_cieluv
  | .lab => xyz_to_lab
  | .lchAb => xyz_to_lch_ab
  | .lchUv => xyz_to_lch_uv
  | .undefined => fun _ _ => ub

noncomputable def from_xyy : ColorType → World → Color → Outcome Color
  | .rgbTrue => xyy_to_rgb_true
  | .rgbDeep => xyy_to_rgb_deep
  | .greyTrue => xyy_to_grey_true
  | .greyDeep => xyy_to_grey_deep
  | .cmyk => xyy_to_cmyk
  | .hsi => xyy_to_hsi
  | .hsv => xyy_to_hsv
  | .hsl => xyy_to_hsl
  | .hcy => xyy_to_hcy
  | .xyz => xyy_to_xyz
  | .xyy => fun _ c => ok c
  | .cieluv => xyy_to_cieluv
  | .lab => xyy_to_lab
  | .lchAb => xyy_to_lch_ab
  | .lchUv => xyy_to_lch_uv
  | .undefined => fun _ _ => ub

noncomputable def from_cieluv : ColorType → World → Color → Outcome Color
  | .rgbTrue => cieluv_to_rgb_true
  | .rgbDeep => cieluv_to_rgb_deep
  | .greyTrue => cieluv_to_grey_true
  | .greyDeep => cieluv_to_grey_deep
  | .cmyk => cieluv_to_cmyk
  | .hsi => cieluv_to_hsi
  | .hsv => cieluv_to_hsv
  | .hsl => cieluv_to_hsl
  | .hcy => cieluv_to_hcy
  | .xyz => cieluv_to_xyz
  | .xyy => cieluv_to_xyy
  | .cieluv => fun _ c => ok c
  | .lab => cieluv_to_lab
  | .lchAb => cieluv_to_lch_ab
  | .lchUv => cieluv_to_lch_uv
  | .undefined => fun _ _ => ub

noncomputable def from_lab : ColorType → World → Color → Outcome Color
  | .rgbTrue => lab_to_rgb_true
  | .rgbDeep => lab_to_rgb_deep
  | .greyTrue => lab_to_grey_true
  | .greyDeep => lab_to_grey_deep
  | .cmyk => lab_to_cmyk
  | .hsi => lab_to_hsi
  | .hsv => lab_to_hsv
  | .hsl => lab_to_hsl
  | .hcy => lab_to_hcy
  | .xyz => lab_to_xyz
  | .xyy => lab_to_xyy
  | .cieluv => lab_to_cieluv
  | .lab => fun _ c => ok c
  | .lchAb => lab_to_lch_ab
  | .lchUv => lab_to_lch_uv
  | .undefined => fun _ _ => ub

noncomputable def from_lch_ab : ColorType → World → Color → Outcome Color
  | .rgbTrue => lch_ab_to_rgb_true
  | .rgbDeep => lch_ab_to_rgb_deep
  | .greyTrue => lch_ab_to_grey_true
  | .greyDeep => lch_ab_to_grey_deep
  | .cmyk => lch_ab_to_cmyk
  | .hsi => lch_ab_to_hsi
  | .hsv => lch_ab_to_hsv
  | .hsl => lch_ab_to_hsl
  | .hcy => lch_ab_to_hcy
  | .xyz => lch_ab_to_xyz
  | .xyy => lch_ab_to_xyy
  | .cieluv => lch_ab_to_cieluv
  | .lab => lch_ab_to_lab
  | .lchAb => fun _ c => ok c
  | .lchUv => lch_ab_to_lch_uv
  | .undefined => fun _ _ => ub

noncomputable def from_lch_uv : ColorType → World → Color → Outcome Color
  | .rgbTrue => lch_uv_to_rgb_true
  | .rgbDeep => lch_uv_to_rgb_deep
  | .greyTrue => lch_uv_to_grey_true
  | .greyDeep => lch_uv_to_grey_deep
  | .cmyk => lch_uv_to_cmyk
  | .hsi => lch_uv_to_hsi
  | .hsv => lch_uv_to_hsv
  | .hsl => lch_uv_to_hsl
  | .hcy => lch_uv_to_hcy
  | .xyz => lch_uv_to_xyz
  | .xyy => lch_uv_to_xyy
  | .cieluv => lch_uv_to_cieluv
  | .lab => lch_uv_to_lab
  | .lchAb => lch_uv_to_lch_ab
  | .lchUv => fun _ c => ok c
  | .undefined => fun _ _ => ub

/-- The table. -/
noncomputable def conv : ColorType → ColorType → World → Color → Outcome Color
  | .rgbTrue => from_rgb_true
  | .rgbDeep => from_rgb_deep
  | .greyTrue => from_grey_true
  | .greyDeep => from_grey_deep
  | .cmyk => from_cmyk
  | .hsi => from_hsi
  | .hsv => from_hsv
  | .hsl => from_hsl
  | .hcy => from_hcy
  | .xyz => from_xyz
  | .xyy => from_xyy
  | .cieluv => from_cieluv
  | .lab => from_lab
  | .lchAb => from_lch_ab
  | .lchUv => from_lch_uv
  | .undefined => fun _ _ _ => ub

end Val

namespace Conv
variable [FloatModel]

theorem c_rgb_true_to_rgb_deep : Computes Converter.rgb_true_to_rgb_deep Val.rgb_true_to_rgb_deep keep := computes_map _
theorem c_rgb_true_to_grey_true : Computes Converter.rgb_true_to_grey_true Val.rgb_true_to_grey_true keep := computes_map _
theorem c_rgb_true_to_grey_deep : Computes Converter.rgb_true_to_grey_deep Val.rgb_true_to_grey_deep keep := by
  intro h i c hc
  have hs : h.colors.set i c = h.colors := by
    obtain ⟨hi, rfl⟩ := List.getElem?_eq_some_iff.mp hc
    exact List.set_getElem_self hi
  have hlt : i < h.colors.length := (List.getElem?_eq_some_iff.mp hc).1
  have h1 := c_rgb_true_to_grey_true h i c hc
  simp only [Val.rgb_true_to_grey_true] at h1
  simp only [Val.rgb_true_to_grey_deep, Converter.rgb_true_to_grey_deep, Prog.bind_def]
  cases hf : Leaf.rgb_true_to_grey_true c with
  | ok d =>
    rw [hf] at h1
    obtain ⟨ext, e1⟩ := h1
    simp only [keep, hs] at e1
    simp only [ok_bind, e1, load, keep, hs]
    have g1 : (h.colors ++ ext ++ [d])[i]? = some c := by
      rw [List.append_assoc, List.getElem?_append_left hlt, hc]
    have g2 : (h.colors ++ ext ++ [d])[h.colors.length + ext.length]? = some d := by
      simp [List.getElem?_append_right]
    simp only [g1, g2, lift]
    cases Leaf.grey_copy_to_deep c.space d with
    | ok e => exact ⟨ext ++ [d], by simp [alloc]⟩
    | throw e => exact ⟨_, rfl⟩
    | ub => exact ⟨_, rfl⟩
  | throw e =>
    rw [hf] at h1
    obtain ⟨ext, e1⟩ := h1
    simp only [throw_bind, e1]
    exact ⟨_, rfl⟩
  | ub =>
    rw [hf] at h1
    obtain ⟨ext, e1⟩ := h1
    simp only [ub_bind, e1]
    exact ⟨_, rfl⟩
theorem c_rgb_deep_to_rgb_true : Computes Converter.rgb_deep_to_rgb_true Val.rgb_deep_to_rgb_true keep := computes_map _
theorem c_rgb_deep_to_grey_deep : Computes Converter.rgb_deep_to_grey_deep Val.rgb_deep_to_grey_deep keep := computes_map _
theorem c_rgb_deep_to_cmyk : Computes Converter.rgb_deep_to_cmyk Val.rgb_deep_to_cmyk keep := computes_map _
theorem c_rgb_deep_to_hsi : Computes Converter.rgb_deep_to_hsi Val.rgb_deep_to_hsi keep := computes_map _
theorem c_rgb_deep_to_hsv : Computes Converter.rgb_deep_to_hsv Val.rgb_deep_to_hsv keep := computes_map _
theorem c_rgb_deep_to_hsl : Computes Converter.rgb_deep_to_hsl Val.rgb_deep_to_hsl keep := computes_map _
theorem c_rgb_deep_to_hcy : Computes Converter.rgb_deep_to_hcy Val.rgb_deep_to_hcy keep := computes_map _
theorem c_rgb_deep_to_xyz : Computes Converter.rgb_deep_to_xyz Val.rgb_deep_to_xyz Val.linearised := by
  intro h i c hc
  have hlt : i < h.colors.length := (List.getElem?_eq_some_iff.mp hc).1
  simp only [Val.rgb_deep_to_xyz, Converter.rgb_deep_to_xyz, Prog.bind_def, load, hc, world, lift, Val.linearised]
  cases Leaf.inverseGamma h.world c with
  | ok d =>
    simp only [ok_bind, store, hlt, if_true]
    cases Leaf.linear_to_xyz h.world d with
    | ok e => exact ⟨[], by simp [alloc]⟩
    | throw e => exact ⟨_, rfl⟩
    | ub => exact ⟨_, rfl⟩
  | throw e => exact ⟨_, rfl⟩
  | ub => exact ⟨_, rfl⟩
theorem c_grey_true_to_rgb_true : Computes Converter.grey_true_to_rgb_true Val.grey_true_to_rgb_true keep := computes_map _
theorem c_grey_true_to_rgb_deep : Computes Converter.grey_true_to_rgb_deep Val.grey_true_to_rgb_deep keep := computes_map _
theorem c_grey_true_to_grey_deep : Computes Converter.grey_true_to_grey_deep Val.grey_true_to_grey_deep keep := computes_map _
theorem c_grey_deep_to_rgb_true : Computes Converter.grey_deep_to_rgb_true Val.grey_deep_to_rgb_true keep := computes_map _
theorem c_grey_deep_to_rgb_deep : Computes Converter.grey_deep_to_rgb_deep Val.grey_deep_to_rgb_deep keep := computes_map _
theorem c_grey_deep_to_grey_true : Computes Converter.grey_deep_to_grey_true Val.grey_deep_to_grey_true keep := computes_map _
theorem c_cmyk_to_rgb_deep : Computes Converter.cmyk_to_rgb_deep Val.cmyk_to_rgb_deep keep := computes_map _
theorem c_hsi_to_rgb_deep : Computes Converter.hsi_to_rgb_deep Val.hsi_to_rgb_deep keep := computes_map _
theorem c_hsv_to_rgb_deep : Computes Converter.hsv_to_rgb_deep Val.hsv_to_rgb_deep keep := computes_map _
theorem c_hsv_to_hsl : Computes Converter.hsv_to_hsl Val.hsv_to_hsl keep := computes_map _
theorem c_hsl_to_rgb_deep : Computes Converter.hsl_to_rgb_deep Val.hsl_to_rgb_deep keep := computes_map _
theorem c_hsl_to_hsv : Computes Converter.hsl_to_hsv Val.hsl_to_hsv keep := computes_map _
theorem c_hcy_to_rgb_deep : Computes Converter.hcy_to_rgb_deep Val.hcy_to_rgb_deep keep := computes_map _
theorem c_xyz_to_rgb_deep : Computes Converter.xyz_to_rgb_deep Val.xyz_to_rgb_deep keep := computes_map _
theorem c_xyz_to_xyy : Computes Converter.xyz_to_xyy Val.xyz_to_xyy keep := computes_map _
theorem c_xyz_to_cieluv : Computes Converter.xyz_to_cieluv Val.xyz_to_cieluv keep := computes_map _
theorem c_xyz_to_lab : Computes Converter.xyz_to_lab Val.xyz_to_lab keep := computes_map _
theorem c_xyy_to_xyz : Computes Converter.xyy_to_xyz Val.xyy_to_xyz keep := computes_map _
theorem c_cieluv_to_xyz : Computes Converter.cieluv_to_xyz Val.cieluv_to_xyz keep := computes_map _
theorem c_cieluv_to_lch_uv : Computes Converter.cieluv_to_lch_uv Val.cieluv_to_lch_uv keep := computes_map _
theorem c_lab_to_xyz : Computes Converter.lab_to_xyz Val.lab_to_xyz keep := computes_map _
theorem c_lab_to_lch_ab : Computes Converter.lab_to_lch_ab Val.lab_to_lch_ab keep := computes_map _
theorem c_lch_ab_to_lab : Computes Converter.lch_ab_to_lab Val.lch_ab_to_lab keep := computes_map _
theorem c_lch_uv_to_cieluv : Computes Converter.lch_uv_to_cieluv Val.lch_uv_to_cieluv keep := computes_map _
theorem c_rgb_true_to_cmyk : Computes Converter.rgb_true_to_cmyk Val.rgb_true_to_cmyk keep := Computes.comp c_rgb_true_to_rgb_deep c_rgb_deep_to_cmyk
theorem c_rgb_true_to_hsi : Computes Converter.rgb_true_to_hsi Val.rgb_true_to_hsi keep := Computes.comp c_rgb_true_to_rgb_deep c_rgb_deep_to_hsi
theorem c_rgb_true_to_hsv : Computes Converter.rgb_true_to_hsv Val.rgb_true_to_hsv keep := Computes.comp c_rgb_true_to_rgb_deep c_rgb_deep_to_hsv
theorem c_rgb_true_to_hsl : Computes Converter.rgb_true_to_hsl Val.rgb_true_to_hsl keep := Computes.comp c_rgb_true_to_rgb_deep c_rgb_deep_to_hsl
theorem c_rgb_true_to_hcy : Computes Converter.rgb_true_to_hcy Val.rgb_true_to_hcy keep := Computes.comp c_rgb_true_to_rgb_deep c_rgb_deep_to_hcy
theorem c_rgb_true_to_xyz : Computes Converter.rgb_true_to_xyz Val.rgb_true_to_xyz keep := Computes.comp c_rgb_true_to_rgb_deep c_rgb_deep_to_xyz
theorem c_rgb_true_to_xyy : Computes Converter.rgb_true_to_xyy Val.rgb_true_to_xyy keep := Computes.comp c_rgb_true_to_xyz c_xyz_to_xyy
theorem c_rgb_true_to_cieluv : Computes Converter.rgb_true_to_cieluv Val.rgb_true_to_cieluv keep := Computes.comp c_rgb_true_to_xyz c_xyz_to_cieluv
theorem c_rgb_deep_to_lab : Computes Converter.rgb_deep_to_lab Val.rgb_deep_to_lab Val.linearised := Computes.comp c_rgb_deep_to_xyz c_xyz_to_lab
theorem c_rgb_true_to_lab : Computes Converter.rgb_true_to_lab Val.rgb_true_to_lab keep := Computes.comp c_rgb_true_to_rgb_deep c_rgb_deep_to_lab
theorem c_rgb_true_to_lch_ab : Computes Converter.rgb_true_to_lch_ab Val.rgb_true_to_lch_ab keep := Computes.comp c_rgb_true_to_lab c_lab_to_lch_ab
theorem c_rgb_true_to_lch_uv : Computes Converter.rgb_true_to_lch_uv Val.rgb_true_to_lch_uv keep := Computes.comp c_rgb_true_to_cieluv c_cieluv_to_lch_uv
theorem c_rgb_deep_to_grey_true : Computes Converter.rgb_deep_to_grey_true Val.rgb_deep_to_grey_true keep := Computes.comp c_rgb_deep_to_rgb_true c_rgb_true_to_grey_true
theorem c_rgb_deep_to_xyy : Computes Converter.rgb_deep_to_xyy Val.rgb_deep_to_xyy Val.linearised := Computes.comp c_rgb_deep_to_xyz c_xyz_to_xyy
theorem c_rgb_deep_to_cieluv : Computes Converter.rgb_deep_to_cieluv Val.rgb_deep_to_cieluv Val.linearised := Computes.comp c_rgb_deep_to_xyz c_xyz_to_cieluv
theorem c_rgb_deep_to_lch_ab : Computes Converter.rgb_deep_to_lch_ab Val.rgb_deep_to_lch_ab Val.linearised := Computes.comp c_rgb_deep_to_lab c_lab_to_lch_ab
theorem c_rgb_deep_to_lch_uv : Computes Converter.rgb_deep_to_lch_uv Val.rgb_deep_to_lch_uv Val.linearised := Computes.comp c_rgb_deep_to_cieluv c_cieluv_to_lch_uv
theorem c_grey_true_to_cmyk : Computes Converter.grey_true_to_cmyk Val.grey_true_to_cmyk keep := Computes.comp c_grey_true_to_rgb_deep c_rgb_deep_to_cmyk
theorem c_grey_true_to_hsi : Computes Converter.grey_true_to_hsi Val.grey_true_to_hsi keep := Computes.comp c_grey_true_to_rgb_deep c_rgb_deep_to_hsi
theorem c_grey_true_to_hsv : Computes Converter.grey_true_to_hsv Val.grey_true_to_hsv keep := Computes.comp c_grey_true_to_rgb_deep c_rgb_deep_to_hsv
theorem c_grey_true_to_hsl : Computes Converter.grey_true_to_hsl Val.grey_true_to_hsl keep := Computes.comp c_grey_true_to_rgb_deep c_rgb_deep_to_hsl
theorem c_grey_true_to_hcy : Computes Converter.grey_true_to_hcy Val.grey_true_to_hcy keep := Computes.comp c_grey_true_to_rgb_deep c_rgb_deep_to_hcy
theorem c_grey_true_to_xyz : Computes Converter.grey_true_to_xyz Val.grey_true_to_xyz keep := Computes.comp c_grey_true_to_rgb_deep c_rgb_deep_to_xyz
theorem c_grey_true_to_xyy : Computes Converter.grey_true_to_xyy Val.grey_true_to_xyy keep := Computes.comp c_grey_true_to_xyz c_xyz_to_xyy
theorem c_grey_true_to_cieluv : Computes Converter.grey_true_to_cieluv Val.grey_true_to_cieluv keep := Computes.comp c_grey_true_to_xyz c_xyz_to_cieluv
theorem c_grey_true_to_lab : Computes Converter.grey_true_to_lab Val.grey_true_to_lab keep := Computes.comp c_grey_true_to_rgb_deep c_rgb_deep_to_lab
theorem c_grey_true_to_lch_ab : Computes Converter.grey_true_to_lch_ab Val.grey_true_to_lch_ab keep := Computes.comp c_grey_true_to_lab c_lab_to_lch_ab
theorem c_grey_true_to_lch_uv : Computes Converter.grey_true_to_lch_uv Val.grey_true_to_lch_uv keep := Computes.comp c_grey_true_to_cieluv c_cieluv_to_lch_uv
theorem c_grey_deep_to_cmyk : Computes Converter.grey_deep_to_cmyk Val.grey_deep_to_cmyk keep := Computes.comp c_grey_deep_to_rgb_deep c_rgb_deep_to_cmyk
theorem c_grey_deep_to_hsi : Computes Converter.grey_deep_to_hsi Val.grey_deep_to_hsi keep := Computes.comp c_grey_deep_to_rgb_deep c_rgb_deep_to_hsi
theorem c_grey_deep_to_hsv : Computes Converter.grey_deep_to_hsv Val.grey_deep_to_hsv keep := Computes.comp c_grey_deep_to_rgb_deep c_rgb_deep_to_hsv
theorem c_grey_deep_to_hsl : Computes Converter.grey_deep_to_hsl Val.grey_deep_to_hsl keep := Computes.comp c_grey_deep_to_rgb_deep c_rgb_deep_to_hsl
theorem c_grey_deep_to_hcy : Computes Converter.grey_deep_to_hcy Val.grey_deep_to_hcy keep := Computes.comp c_grey_deep_to_rgb_deep c_rgb_deep_to_hcy
theorem c_grey_deep_to_xyz : Computes Converter.grey_deep_to_xyz Val.grey_deep_to_xyz keep := Computes.comp c_grey_deep_to_rgb_deep c_rgb_deep_to_xyz
theorem c_grey_deep_to_xyy : Computes Converter.grey_deep_to_xyy Val.grey_deep_to_xyy keep := Computes.comp c_grey_deep_to_xyz c_xyz_to_xyy
theorem c_grey_deep_to_cieluv : Computes Converter.grey_deep_to_cieluv Val.grey_deep_to_cieluv keep := Computes.comp c_grey_deep_to_xyz c_xyz_to_cieluv
theorem c_grey_deep_to_lab : Computes Converter.grey_deep_to_lab Val.grey_deep_to_lab keep := Computes.comp c_grey_deep_to_rgb_deep c_rgb_deep_to_lab
theorem c_grey_deep_to_lch_ab : Computes Converter.grey_deep_to_lch_ab Val.grey_deep_to_lch_ab keep := Computes.comp c_grey_deep_to_lab c_lab_to_lch_ab
theorem c_grey_deep_to_lch_uv : Computes Converter.grey_deep_to_lch_uv Val.grey_deep_to_lch_uv keep := Computes.comp c_grey_deep_to_cieluv c_cieluv_to_lch_uv
theorem c_cmyk_to_rgb_true : Computes Converter.cmyk_to_rgb_true Val.cmyk_to_rgb_true keep := Computes.comp c_cmyk_to_rgb_deep c_rgb_deep_to_rgb_true
theorem c_cmyk_to_grey_true : Computes Converter.cmyk_to_grey_true Val.cmyk_to_grey_true keep := Computes.comp c_cmyk_to_rgb_deep c_rgb_deep_to_grey_true
theorem c_cmyk_to_grey_deep : Computes Converter.cmyk_to_grey_deep Val.cmyk_to_grey_deep keep := Computes.comp c_cmyk_to_rgb_deep c_rgb_deep_to_grey_deep
theorem c_cmyk_to_hsi : Computes Converter.cmyk_to_hsi Val.cmyk_to_hsi keep := Computes.comp c_cmyk_to_rgb_deep c_rgb_deep_to_hsi
theorem c_cmyk_to_hsv : Computes Converter.cmyk_to_hsv Val.cmyk_to_hsv keep := Computes.comp c_cmyk_to_rgb_deep c_rgb_deep_to_hsv
theorem c_cmyk_to_hsl : Computes Converter.cmyk_to_hsl Val.cmyk_to_hsl keep := Computes.comp c_cmyk_to_rgb_deep c_rgb_deep_to_hsl
theorem c_cmyk_to_hcy : Computes Converter.cmyk_to_hcy Val.cmyk_to_hcy keep := Computes.comp c_cmyk_to_rgb_deep c_rgb_deep_to_hcy
theorem c_cmyk_to_xyz : Computes Converter.cmyk_to_xyz Val.cmyk_to_xyz keep := Computes.comp c_cmyk_to_rgb_deep c_rgb_deep_to_xyz
theorem c_cmyk_to_xyy : Computes Converter.cmyk_to_xyy Val.cmyk_to_xyy keep := Computes.comp c_cmyk_to_xyz c_xyz_to_xyy
theorem c_cmyk_to_cieluv : Computes Converter.cmyk_to_cieluv Val.cmyk_to_cieluv keep := Computes.comp c_cmyk_to_xyz c_xyz_to_cieluv
theorem c_cmyk_to_lab : Computes Converter.cmyk_to_lab Val.cmyk_to_lab keep := Computes.comp c_cmyk_to_rgb_deep c_rgb_deep_to_lab
theorem c_cmyk_to_lch_ab : Computes Converter.cmyk_to_lch_ab Val.cmyk_to_lch_ab keep := Computes.comp c_cmyk_to_lab c_lab_to_lch_ab
theorem c_cmyk_to_lch_uv : Computes Converter.cmyk_to_lch_uv Val.cmyk_to_lch_uv keep := Computes.comp c_cmyk_to_cieluv c_cieluv_to_lch_uv
theorem c_hsi_to_rgb_true : Computes Converter.hsi_to_rgb_true Val.hsi_to_rgb_true keep := Computes.comp c_hsi_to_rgb_deep c_rgb_deep_to_rgb_true
theorem c_hsi_to_grey_true : Computes Converter.hsi_to_grey_true Val.hsi_to_grey_true keep := Computes.comp c_hsi_to_rgb_deep c_rgb_deep_to_grey_true
theorem c_hsi_to_grey_deep : Computes Converter.hsi_to_grey_deep Val.hsi_to_grey_deep keep := Computes.comp c_hsi_to_rgb_deep c_rgb_deep_to_grey_deep
theorem c_hsi_to_cmyk : Computes Converter.hsi_to_cmyk Val.hsi_to_cmyk keep := Computes.comp c_hsi_to_rgb_deep c_rgb_deep_to_cmyk
theorem c_hsi_to_hsv : Computes Converter.hsi_to_hsv Val.hsi_to_hsv keep := Computes.comp c_hsi_to_rgb_deep c_rgb_deep_to_hsv
theorem c_hsi_to_hsl : Computes Converter.hsi_to_hsl Val.hsi_to_hsl keep := Computes.comp c_hsi_to_rgb_deep c_rgb_deep_to_hsl
theorem c_hsi_to_hcy : Computes Converter.hsi_to_hcy Val.hsi_to_hcy keep := Computes.comp c_hsi_to_rgb_deep c_rgb_deep_to_hcy
theorem c_hsi_to_xyz : Computes Converter.hsi_to_xyz Val.hsi_to_xyz keep := Computes.comp c_hsi_to_rgb_deep c_rgb_deep_to_xyz
theorem c_hsi_to_xyy : Computes Converter.hsi_to_xyy Val.hsi_to_xyy keep := Computes.comp c_hsi_to_rgb_deep c_rgb_deep_to_xyy
theorem c_hsi_to_cieluv : Computes Converter.hsi_to_cieluv Val.hsi_to_cieluv keep := Computes.comp c_hsi_to_rgb_deep c_rgb_deep_to_cieluv
theorem c_hsi_to_lab : Computes Converter.hsi_to_lab Val.hsi_to_lab keep := Computes.comp c_hsi_to_rgb_deep c_rgb_deep_to_lab
theorem c_hsi_to_lch_ab : Computes Converter.hsi_to_lch_ab Val.hsi_to_lch_ab keep := Computes.comp c_hsi_to_rgb_deep c_rgb_deep_to_lch_ab
theorem c_hsi_to_lch_uv : Computes Converter.hsi_to_lch_uv Val.hsi_to_lch_uv keep := Computes.comp c_hsi_to_rgb_deep c_rgb_deep_to_lch_uv
theorem c_hsv_to_rgb_true : Computes Converter.hsv_to_rgb_true Val.hsv_to_rgb_true keep := Computes.comp c_hsv_to_rgb_deep c_rgb_deep_to_rgb_true
theorem c_hsv_to_grey_true : Computes Converter.hsv_to_grey_true Val.hsv_to_grey_true keep := Computes.comp c_hsv_to_rgb_deep c_rgb_deep_to_grey_true
theorem c_hsv_to_grey_deep : Computes Converter.hsv_to_grey_deep Val.hsv_to_grey_deep keep := Computes.comp c_hsv_to_rgb_deep c_rgb_deep_to_grey_deep
theorem c_hsv_to_cmyk : Computes Converter.hsv_to_cmyk Val.hsv_to_cmyk keep := Computes.comp c_hsv_to_rgb_deep c_rgb_deep_to_cmyk
theorem c_hsv_to_hsi : Computes Converter.hsv_to_hsi Val.hsv_to_hsi keep := Computes.comp c_hsv_to_rgb_deep c_rgb_deep_to_hsi
theorem c_hsv_to_hcy : Computes Converter.hsv_to_hcy Val.hsv_to_hcy keep := Computes.comp c_hsv_to_rgb_deep c_rgb_deep_to_hcy
theorem c_hsv_to_xyz : Computes Converter.hsv_to_xyz Val.hsv_to_xyz keep := Computes.comp c_hsv_to_rgb_deep c_rgb_deep_to_xyz
theorem c_hsv_to_xyy : Computes Converter.hsv_to_xyy Val.hsv_to_xyy keep := Computes.comp c_hsv_to_xyz c_xyz_to_xyy
theorem c_hsv_to_cieluv : Computes Converter.hsv_to_cieluv Val.hsv_to_cieluv keep := Computes.comp c_hsv_to_xyz c_xyz_to_cieluv
theorem c_hsv_to_lab : Computes Converter.hsv_to_lab Val.hsv_to_lab keep := Computes.comp c_hsv_to_rgb_deep c_rgb_deep_to_lab
theorem c_hsv_to_lch_ab : Computes Converter.hsv_to_lch_ab Val.hsv_to_lch_ab keep := Computes.comp c_hsv_to_lab c_lab_to_lch_ab
theorem c_hsv_to_lch_uv : Computes Converter.hsv_to_lch_uv Val.hsv_to_lch_uv keep := Computes.comp c_hsv_to_cieluv c_cieluv_to_lch_uv
theorem c_hsl_to_rgb_true : Computes Converter.hsl_to_rgb_true Val.hsl_to_rgb_true keep := Computes.comp c_hsl_to_rgb_deep c_rgb_deep_to_rgb_true
theorem c_hsl_to_grey_true : Computes Converter.hsl_to_grey_true Val.hsl_to_grey_true keep := Computes.comp c_hsl_to_rgb_deep c_rgb_deep_to_grey_true
theorem c_hsl_to_grey_deep : Computes Converter.hsl_to_grey_deep Val.hsl_to_grey_deep keep := Computes.comp c_hsl_to_rgb_deep c_rgb_deep_to_grey_deep
theorem c_hsl_to_cmyk : Computes Converter.hsl_to_cmyk Val.hsl_to_cmyk keep := Computes.comp c_hsl_to_rgb_deep c_rgb_deep_to_cmyk
theorem c_hsl_to_hsi : Computes Converter.hsl_to_hsi Val.hsl_to_hsi keep := Computes.comp c_hsl_to_rgb_deep c_rgb_deep_to_hsi
theorem c_hsl_to_hcy : Computes Converter.hsl_to_hcy Val.hsl_to_hcy keep := Computes.comp c_hsl_to_rgb_deep c_rgb_deep_to_hcy
theorem c_hsl_to_xyz : Computes Converter.hsl_to_xyz Val.hsl_to_xyz keep := Computes.comp c_hsl_to_rgb_deep c_rgb_deep_to_xyz
theorem c_hsl_to_xyy : Computes Converter.hsl_to_xyy Val.hsl_to_xyy keep := Computes.comp c_hsl_to_xyz c_xyz_to_xyy
theorem c_hsl_to_cieluv : Computes Converter.hsl_to_cieluv Val.hsl_to_cieluv keep := Computes.comp c_hsl_to_xyz c_xyz_to_cieluv
theorem c_hsl_to_lab : Computes Converter.hsl_to_lab Val.hsl_to_lab keep := Computes.comp c_hsl_to_rgb_deep c_rgb_deep_to_lab
theorem c_hsl_to_lch_ab : Computes Converter.hsl_to_lch_ab Val.hsl_to_lch_ab keep := Computes.comp c_hsl_to_lab c_lab_to_lch_ab
theorem c_hsl_to_lch_uv : Computes Converter.hsl_to_lch_uv Val.hsl_to_lch_uv keep := Computes.comp c_hsl_to_cieluv c_cieluv_to_lch_uv
theorem c_hcy_to_rgb_true : Computes Converter.hcy_to_rgb_true Val.hcy_to_rgb_true keep := Computes.comp c_hcy_to_rgb_deep c_rgb_deep_to_rgb_true
theorem c_hcy_to_grey_true : Computes Converter.hcy_to_grey_true Val.hcy_to_grey_true keep := Computes.comp c_hcy_to_rgb_deep c_rgb_deep_to_grey_true
theorem c_hcy_to_grey_deep : Computes Converter.hcy_to_grey_deep Val.hcy_to_grey_deep keep := Computes.comp c_hcy_to_rgb_deep c_rgb_deep_to_grey_deep
theorem c_hcy_to_cmyk : Computes Converter.hcy_to_cmyk Val.hcy_to_cmyk keep := Computes.comp c_hcy_to_rgb_deep c_rgb_deep_to_cmyk
theorem c_hcy_to_hsi : Computes Converter.hcy_to_hsi Val.hcy_to_hsi keep := Computes.comp c_hcy_to_rgb_deep c_rgb_deep_to_hsi
theorem c_hcy_to_hsv : Computes Converter.hcy_to_hsv Val.hcy_to_hsv keep := Computes.comp c_hcy_to_rgb_deep c_rgb_deep_to_hsv
theorem c_hcy_to_hsl : Computes Converter.hcy_to_hsl Val.hcy_to_hsl keep := Computes.comp c_hcy_to_rgb_deep c_rgb_deep_to_hsl
theorem c_hcy_to_xyz : Computes Converter.hcy_to_xyz Val.hcy_to_xyz keep := Computes.comp c_hcy_to_rgb_deep c_rgb_deep_to_xyz
theorem c_hcy_to_xyy : Computes Converter.hcy_to_xyy Val.hcy_to_xyy keep := Computes.comp c_hcy_to_rgb_deep c_rgb_deep_to_xyy
theorem c_hcy_to_cieluv : Computes Converter.hcy_to_cieluv Val.hcy_to_cieluv keep := Computes.comp c_hcy_to_rgb_deep c_rgb_deep_to_cieluv
theorem c_hcy_to_lab : Computes Converter.hcy_to_lab Val.hcy_to_lab keep := Computes.comp c_hcy_to_rgb_deep c_rgb_deep_to_lab
theorem c_hcy_to_lch_ab : Computes Converter.hcy_to_lch_ab Val.hcy_to_lch_ab keep := Computes.comp c_hcy_to_rgb_deep c_rgb_deep_to_lch_ab
theorem c_hcy_to_lch_uv : Computes Converter.hcy_to_lch_uv Val.hcy_to_lch_uv keep := Computes.comp c_hcy_to_rgb_deep c_rgb_deep_to_lch_uv
theorem c_xyz_to_rgb_true : Computes Converter.xyz_to_rgb_true Val.xyz_to_rgb_true keep := Computes.comp c_xyz_to_rgb_deep c_rgb_deep_to_rgb_true
theorem c_xyz_to_grey_true : Computes Converter.xyz_to_grey_true Val.xyz_to_grey_true keep := Computes.comp c_xyz_to_rgb_deep c_rgb_deep_to_grey_true
theorem c_xyz_to_grey_deep : Computes Converter.xyz_to_grey_deep Val.xyz_to_grey_deep keep := Computes.comp c_xyz_to_rgb_deep c_rgb_deep_to_grey_deep
theorem c_xyz_to_cmyk : Computes Converter.xyz_to_cmyk Val.xyz_to_cmyk keep := Computes.comp c_xyz_to_rgb_deep c_rgb_deep_to_cmyk
theorem c_xyz_to_hsi : Computes Converter.xyz_to_hsi Val.xyz_to_hsi keep := Computes.comp c_xyz_to_rgb_deep c_rgb_deep_to_hsi
theorem c_xyz_to_hsv : Computes Converter.xyz_to_hsv Val.xyz_to_hsv keep := Computes.comp c_xyz_to_rgb_deep c_rgb_deep_to_hsv
theorem c_xyz_to_hsl : Computes Converter.xyz_to_hsl Val.xyz_to_hsl keep := Computes.comp c_xyz_to_rgb_deep c_rgb_deep_to_hsl
theorem c_xyz_to_hcy : Computes Converter.xyz_to_hcy Val.xyz_to_hcy keep := Computes.comp c_xyz_to_rgb_deep c_rgb_deep_to_hcy
theorem c_xyz_to_lch_ab : Computes Converter.xyz_to_lch_ab Val.xyz_to_lch_ab keep := Computes.comp c_xyz_to_lab c_lab_to_lch_ab
theorem c_xyz_to_lch_uv : Computes Converter.xyz_to_lch_uv Val.xyz_to_lch_uv keep := Computes.comp c_xyz_to_cieluv c_cieluv_to_lch_uv
theorem c_xyy_to_rgb_true : Computes Converter.xyy_to_rgb_true Val.xyy_to_rgb_true keep := Computes.comp c_xyy_to_xyz c_xyz_to_rgb_true
theorem c_xyy_to_rgb_deep : Computes Converter.xyy_to_rgb_deep Val.xyy_to_rgb_deep keep := Computes.comp c_xyy_to_xyz c_xyz_to_rgb_deep
theorem c_xyy_to_grey_true : Computes Converter.xyy_to_grey_true Val.xyy_to_grey_true keep := Computes.comp c_xyy_to_xyz c_xyz_to_grey_true
theorem c_xyy_to_grey_deep : Computes Converter.xyy_to_grey_deep Val.xyy_to_grey_deep keep := Computes.comp c_xyy_to_xyz c_xyz_to_grey_deep
theorem c_xyy_to_cmyk : Computes Converter.xyy_to_cmyk Val.xyy_to_cmyk keep := Computes.comp c_xyy_to_xyz c_xyz_to_cmyk
theorem c_xyy_to_hsi : Computes Converter.xyy_to_hsi Val.xyy_to_hsi keep := Computes.comp c_xyy_to_xyz c_xyz_to_hsi
theorem c_xyy_to_hsv : Computes Converter.xyy_to_hsv Val.xyy_to_hsv keep := Computes.comp c_xyy_to_xyz c_xyz_to_hsv
theorem c_xyy_to_hsl : Computes Converter.xyy_to_hsl Val.xyy_to_hsl keep := Computes.comp c_xyy_to_xyz c_xyz_to_hsl
theorem c_xyy_to_hcy : Computes Converter.xyy_to_hcy Val.xyy_to_hcy keep := Computes.comp c_xyy_to_xyz c_xyz_to_hcy
theorem c_xyy_to_cieluv : Computes Converter.xyy_to_cieluv Val.xyy_to_cieluv keep := Computes.comp c_xyy_to_xyz c_xyz_to_cieluv
theorem c_xyy_to_lab : Computes Converter.xyy_to_lab Val.xyy_to_lab keep := Computes.comp c_xyy_to_xyz c_xyz_to_lab
theorem c_xyy_to_lch_ab : Computes Converter.xyy_to_lch_ab Val.xyy_to_lch_ab keep := Computes.comp c_xyy_to_lab c_lab_to_lch_ab
theorem c_xyy_to_lch_uv : Computes Converter.xyy_to_lch_uv Val.xyy_to_lch_uv keep := Computes.comp c_xyy_to_cieluv c_cieluv_to_lch_uv
theorem c_cieluv_to_rgb_true : Computes Converter.cieluv_to_rgb_true Val.cieluv_to_rgb_true keep := Computes.comp c_cieluv_to_xyz c_xyz_to_rgb_true
theorem c_cieluv_to_rgb_deep : Computes Converter.cieluv_to_rgb_deep Val.cieluv_to_rgb_deep keep := Computes.comp c_cieluv_to_xyz c_xyz_to_rgb_deep
theorem c_cieluv_to_grey_true : Computes Converter.cieluv_to_grey_true Val.cieluv_to_grey_true keep := Computes.comp c_cieluv_to_xyz c_xyz_to_grey_true
theorem c_cieluv_to_grey_deep : Computes Converter.cieluv_to_grey_deep Val.cieluv_to_grey_deep keep := Computes.comp c_cieluv_to_xyz c_xyz_to_grey_deep
theorem c_cieluv_to_cmyk : Computes Converter.cieluv_to_cmyk Val.cieluv_to_cmyk keep := Computes.comp c_cieluv_to_xyz c_xyz_to_cmyk
theorem c_cieluv_to_hsi : Computes Converter.cieluv_to_hsi Val.cieluv_to_hsi keep := Computes.comp c_cieluv_to_xyz c_xyz_to_hsi
theorem c_cieluv_to_hsv : Computes Converter.cieluv_to_hsv Val.cieluv_to_hsv keep := Computes.comp c_cieluv_to_xyz c_xyz_to_hsv
theorem c_cieluv_to_hsl : Computes Converter.cieluv_to_hsl Val.cieluv_to_hsl keep := Computes.comp c_cieluv_to_xyz c_xyz_to_hsl
theorem c_cieluv_to_hcy : Computes Converter.cieluv_to_hcy Val.cieluv_to_hcy keep := Computes.comp c_cieluv_to_xyz c_xyz_to_hcy
theorem c_cieluv_to_xyy : Computes Converter.cieluv_to_xyy Val.cieluv_to_xyy keep := Computes.comp c_cieluv_to_xyz c_xyz_to_xyy
theorem c_cieluv_to_lab : Computes Converter.cieluv_to_lab Val.cieluv_to_lab keep := Computes.comp c_cieluv_to_xyz c_xyz_to_lab
theorem c_cieluv_to_lch_ab : Computes Converter.cieluv_to_lch_ab Val.cieluv_to_lch_ab keep := Computes.comp c_cieluv_to_lab c_lab_to_lch_ab
theorem c_lab_to_rgb_true : Computes Converter.lab_to_rgb_true Val.lab_to_rgb_true keep := Computes.comp c_lab_to_xyz c_xyz_to_rgb_true
theorem c_lab_to_rgb_deep : Computes Converter.lab_to_rgb_deep Val.lab_to_rgb_deep keep := Computes.comp c_lab_to_xyz c_xyz_to_rgb_deep
theorem c_lab_to_grey_true : Computes Converter.lab_to_grey_true Val.lab_to_grey_true keep := Computes.comp c_lab_to_xyz c_xyz_to_grey_true
theorem c_lab_to_grey_deep : Computes Converter.lab_to_grey_deep Val.lab_to_grey_deep keep := Computes.comp c_lab_to_xyz c_xyz_to_grey_deep
theorem c_lab_to_cmyk : Computes Converter.lab_to_cmyk Val.lab_to_cmyk keep := Computes.comp c_lab_to_xyz c_xyz_to_cmyk
theorem c_lab_to_hsi : Computes Converter.lab_to_hsi Val.lab_to_hsi keep := Computes.comp c_lab_to_xyz c_xyz_to_hsi
theorem c_lab_to_hsv : Computes Converter.lab_to_hsv Val.lab_to_hsv keep := Computes.comp c_lab_to_xyz c_xyz_to_hsv
theorem c_lab_to_hsl : Computes Converter.lab_to_hsl Val.lab_to_hsl keep := Computes.comp c_lab_to_xyz c_xyz_to_hsl
theorem c_lab_to_hcy : Computes Converter.lab_to_hcy Val.lab_to_hcy keep := Computes.comp c_lab_to_xyz c_xyz_to_hcy
theorem c_lab_to_xyy : Computes Converter.lab_to_xyy Val.lab_to_xyy keep := Computes.comp c_lab_to_xyz c_xyz_to_xyy
theorem c_lab_to_cieluv : Computes Converter.lab_to_cieluv Val.lab_to_cieluv keep := Computes.comp c_lab_to_xyz c_xyz_to_cieluv
theorem c_lab_to_lch_uv : Computes Converter.lab_to_lch_uv Val.lab_to_lch_uv keep := Computes.comp c_lab_to_cieluv c_cieluv_to_lch_uv
theorem c_lch_ab_to_rgb_true : Computes Converter.lch_ab_to_rgb_true Val.lch_ab_to_rgb_true keep := Computes.comp c_lch_ab_to_lab c_lab_to_rgb_true
theorem c_lch_ab_to_rgb_deep : Computes Converter.lch_ab_to_rgb_deep Val.lch_ab_to_rgb_deep keep := Computes.comp c_lch_ab_to_lab c_lab_to_rgb_deep
theorem c_lch_ab_to_grey_true : Computes Converter.lch_ab_to_grey_true Val.lch_ab_to_grey_true keep := Computes.comp c_lch_ab_to_lab c_lab_to_grey_true
theorem c_lch_ab_to_grey_deep : Computes Converter.lch_ab_to_grey_deep Val.lch_ab_to_grey_deep keep := Computes.comp c_lch_ab_to_lab c_lab_to_grey_deep
theorem c_lch_ab_to_cmyk : Computes Converter.lch_ab_to_cmyk Val.lch_ab_to_cmyk keep := Computes.comp c_lch_ab_to_lab c_lab_to_cmyk
theorem c_lch_ab_to_hsi : Computes Converter.lch_ab_to_hsi Val.lch_ab_to_hsi keep := Computes.comp c_lch_ab_to_lab c_lab_to_hsi
theorem c_lch_ab_to_hsv : Computes Converter.lch_ab_to_hsv Val.lch_ab_to_hsv keep := Computes.comp c_lch_ab_to_lab c_lab_to_hsv
theorem c_lch_ab_to_hsl : Computes Converter.lch_ab_to_hsl Val.lch_ab_to_hsl keep := Computes.comp c_lch_ab_to_lab c_lab_to_hsl
theorem c_lch_ab_to_hcy : Computes Converter.lch_ab_to_hcy Val.lch_ab_to_hcy keep := Computes.comp c_lch_ab_to_lab c_lab_to_hcy
theorem c_lch_ab_to_xyz : Computes Converter.lch_ab_to_xyz Val.lch_ab_to_xyz keep := Computes.comp c_lch_ab_to_lab c_lab_to_xyz
theorem c_lch_ab_to_xyy : Computes Converter.lch_ab_to_xyy Val.lch_ab_to_xyy keep := Computes.comp c_lch_ab_to_lab c_lab_to_xyy
theorem c_lch_ab_to_cieluv : Computes Converter.lch_ab_to_cieluv Val.lch_ab_to_cieluv keep := Computes.comp c_lch_ab_to_lab c_lab_to_cieluv
theorem c_lch_ab_to_lch_uv : Computes Converter.lch_ab_to_lch_uv Val.lch_ab_to_lch_uv keep := Computes.comp c_lch_ab_to_cieluv c_cieluv_to_lch_uv
theorem c_lch_uv_to_rgb_true : Computes Converter.lch_uv_to_rgb_true Val.lch_uv_to_rgb_true keep := Computes.comp c_lch_uv_to_cieluv c_cieluv_to_rgb_true
theorem c_lch_uv_to_rgb_deep : Computes Converter.lch_uv_to_rgb_deep Val.lch_uv_to_rgb_deep keep := Computes.comp c_lch_uv_to_cieluv c_cieluv_to_rgb_deep
theorem c_lch_uv_to_grey_true : Computes Converter.lch_uv_to_grey_true Val.lch_uv_to_grey_true keep := Computes.comp c_lch_uv_to_cieluv c_cieluv_to_grey_true
theorem c_lch_uv_to_grey_deep : Computes Converter.lch_uv_to_grey_deep Val.lch_uv_to_grey_deep keep := Computes.comp c_lch_uv_to_cieluv c_cieluv_to_grey_deep
theorem c_lch_uv_to_cmyk : Computes Converter.lch_uv_to_cmyk Val.lch_uv_to_cmyk keep := Computes.comp c_lch_uv_to_cieluv c_cieluv_to_cmyk
theorem c_lch_uv_to_hsi : Computes Converter.lch_uv_to_hsi Val.lch_uv_to_hsi keep := Computes.comp c_lch_uv_to_cieluv c_cieluv_to_hsi
theorem c_lch_uv_to_hsv : Computes Converter.lch_uv_to_hsv Val.lch_uv_to_hsv keep := Computes.comp c_lch_uv_to_cieluv c_cieluv_to_hsv
theorem c_lch_uv_to_hsl : Computes Converter.lch_uv_to_hsl Val.lch_uv_to_hsl keep := Computes.comp c_lch_uv_to_cieluv c_cieluv_to_hsl
theorem c_lch_uv_to_hcy : Computes Converter.lch_uv_to_hcy Val.lch_uv_to_hcy keep := Computes.comp c_lch_uv_to_cieluv c_cieluv_to_hcy
theorem c_lch_uv_to_xyz : Computes Converter.lch_uv_to_xyz Val.lch_uv_to_xyz keep := Computes.comp c_lch_uv_to_cieluv c_cieluv_to_xyz
theorem c_lch_uv_to_xyy : Computes Converter.lch_uv_to_xyy Val.lch_uv_to_xyy keep := Computes.comp c_lch_uv_to_cieluv c_cieluv_to_xyy
theorem c_lch_uv_to_lab : Computes Converter.lch_uv_to_lab Val.lch_uv_to_lab keep := Computes.comp c_lch_uv_to_cieluv c_cieluv_to_lab
theorem c_lch_uv_to_lch_ab : Computes Converter.lch_uv_to_lch_ab Val.lch_uv_to_lch_ab keep := Computes.comp c_lch_uv_to_cieluv c_cieluv_to_lch_ab

theorem sector_length (h x y : Fl) : (Leaf.sector h x y).length = 3 := by
  unfold Leaf.sector
  repeat' split
  all_goals rfl

theorem construct_setAlpha_total (t : ColorType) {vs : List Fl} (a b : Fl) (sp : Option Nat) (hl : vs.length = Color.count t) :
    ∃ c, (Color.construct t vs a sp >>= fun d => ok (d.setAlpha b)) = ok c := by
  obtain ⟨d, hd⟩ := construct_total t a sp hl
  exact ⟨_, by rw [hd, ok_bind]⟩

macro "total_finish" : tactic => `(tactic| (
  first
    | exact construct_total _ _ _ rfl
    | (split <;> exact construct_total _ _ _ rfl)
    | exact construct_setAlpha_total _ _ _ _ rfl))

theorem g_rgb_true_to_rgb_deep : Good .rgbTrue .rgbDeep Val.rgb_true_to_rgb_deep where
  total w c hc hw := by
    obtain ⟨x, y, z, hc⟩ := isColor_three rfl hc
    rw [hc]
    simp only [Val.rgb_true_to_rgb_deep, Leaf.rgb_true_to_rgb_deep, Leaf.to_lch, Leaf.from_lch, Color.constructGrey, get3_0, get3_1, get3_2, get1_0, get4_0, get4_1, get4_2, get4_3, ok_bind, World.space, World.white]
    total_finish
  result w c c' h := by
    simp only [Val.rgb_true_to_rgb_deep, Leaf.rgb_true_to_rgb_deep, Leaf.to_lch, Leaf.from_lch, Color.constructGrey, Outcome.bind_eq_ok] at h
    obtain ⟨_, _, _, _, _, _, h⟩ := h
    exact construct_result (by simp) rfl h

theorem g_rgb_true_to_grey_true : Good .rgbTrue .greyTrue Val.rgb_true_to_grey_true where
  total w c hc hw := by
    obtain ⟨x, y, z, hc⟩ := isColor_three rfl hc
    rw [hc]
    simp only [Val.rgb_true_to_grey_true, Leaf.rgb_true_to_grey_true, Leaf.to_lch, Leaf.from_lch, Color.constructGrey, get3_0, get3_1, get3_2, get1_0, get4_0, get4_1, get4_2, get4_3, ok_bind, World.space, World.white]
    total_finish
  result w c c' h := by
    simp only [Val.rgb_true_to_grey_true, Leaf.rgb_true_to_grey_true, Leaf.to_lch, Leaf.from_lch, Color.constructGrey, Outcome.bind_eq_ok] at h
    obtain ⟨_, _, _, _, _, _, h⟩ := h
    exact construct_result (by simp) rfl h

theorem g_rgb_true_to_grey_deep : Good .rgbTrue .greyDeep Val.rgb_true_to_grey_deep where
  total w c hc hw := by
    obtain ⟨x, y, z, hc⟩ := isColor_three rfl hc
    rw [hc]
    simp only [Val.rgb_true_to_grey_deep, Leaf.rgb_true_to_grey_true, get3_0, get3_1, get3_2, ok_bind, Color.construct_greyTrue, Leaf.grey_copy_to_deep, Color.mkGreyTrue, Color.copy, Color.setAlpha, get1_0]
    total_finish
  result w c c' h := by
    simp only [Val.rgb_true_to_grey_deep, Leaf.grey_copy_to_deep, Outcome.bind_eq_ok] at h
    obtain ⟨_, _, _, _, h⟩ := h
    exact construct_result (by simp) rfl h

theorem g_rgb_deep_to_rgb_true : Good .rgbDeep .rgbTrue Val.rgb_deep_to_rgb_true where
  total w c hc hw := by
    obtain ⟨x, y, z, hc⟩ := isColor_three rfl hc
    rw [hc]
    simp only [Val.rgb_deep_to_rgb_true, Leaf.rgb_deep_to_rgb_true, Leaf.to_lch, Leaf.from_lch, Color.constructGrey, get3_0, get3_1, get3_2, get1_0, get4_0, get4_1, get4_2, get4_3, ok_bind, World.space, World.white]
    total_finish
  result w c c' h := by
    simp only [Val.rgb_deep_to_rgb_true, Leaf.rgb_deep_to_rgb_true, Leaf.to_lch, Leaf.from_lch, Color.constructGrey, Outcome.bind_eq_ok] at h
    obtain ⟨_, _, _, _, _, _, h⟩ := h
    exact construct_result (by simp) rfl h

theorem g_rgb_deep_to_grey_deep : Good .rgbDeep .greyDeep Val.rgb_deep_to_grey_deep where
  total w c hc hw := by
    obtain ⟨x, y, z, hc⟩ := isColor_three rfl hc
    rw [hc]
    simp only [Val.rgb_deep_to_grey_deep, Leaf.rgb_deep_to_grey_deep, Leaf.to_lch, Leaf.from_lch, Color.constructGrey, get3_0, get3_1, get3_2, get1_0, get4_0, get4_1, get4_2, get4_3, ok_bind, World.space, World.white]
    total_finish
  result w c c' h := by
    simp only [Val.rgb_deep_to_grey_deep, Leaf.rgb_deep_to_grey_deep, Leaf.to_lch, Leaf.from_lch, Color.constructGrey, Outcome.bind_eq_ok] at h
    obtain ⟨_, _, _, _, _, _, h⟩ := h
    exact construct_result (by simp) rfl h

theorem g_rgb_deep_to_cmyk : Good .rgbDeep .cmyk Val.rgb_deep_to_cmyk where
  total w c hc hw := by
    obtain ⟨x, y, z, hc⟩ := isColor_three rfl hc
    rw [hc]
    simp only [Val.rgb_deep_to_cmyk, Leaf.rgb_deep_to_cmyk, Leaf.to_lch, Leaf.from_lch, Color.constructGrey, get3_0, get3_1, get3_2, get1_0, get4_0, get4_1, get4_2, get4_3, ok_bind, World.space, World.white]
    total_finish
  result w c c' h := by
    simp only [Val.rgb_deep_to_cmyk, Leaf.rgb_deep_to_cmyk, Leaf.to_lch, Leaf.from_lch, Color.constructGrey, Outcome.bind_eq_ok] at h
    obtain ⟨_, _, _, _, _, _, h⟩ := h
    exact construct_result (by simp) rfl h

theorem g_rgb_deep_to_hsi : Good .rgbDeep .hsi Val.rgb_deep_to_hsi where
  total w c hc hw := by
    obtain ⟨x, y, z, hc⟩ := isColor_three rfl hc
    rw [hc]
    simp only [Val.rgb_deep_to_hsi, Leaf.rgb_deep_to_hsi, Leaf.to_lch, Leaf.from_lch, Color.constructGrey, get3_0, get3_1, get3_2, get1_0, get4_0, get4_1, get4_2, get4_3, ok_bind, World.space, World.white]
    total_finish
  result w c c' h := by
    simp only [Val.rgb_deep_to_hsi, Leaf.rgb_deep_to_hsi, Leaf.to_lch, Leaf.from_lch, Color.constructGrey, Outcome.bind_eq_ok] at h
    obtain ⟨_, _, _, _, _, _, h⟩ := h
    split at h <;> exact construct_result (by simp) rfl h

theorem g_rgb_deep_to_hsv : Good .rgbDeep .hsv Val.rgb_deep_to_hsv where
  total w c hc hw := by
    obtain ⟨x, y, z, hc⟩ := isColor_three rfl hc
    rw [hc]
    simp only [Val.rgb_deep_to_hsv, Leaf.rgb_deep_to_hsv, Leaf.to_lch, Leaf.from_lch, Color.constructGrey, get3_0, get3_1, get3_2, get1_0, get4_0, get4_1, get4_2, get4_3, ok_bind, World.space, World.white]
    total_finish
  result w c c' h := by
    simp only [Val.rgb_deep_to_hsv, Leaf.rgb_deep_to_hsv, Leaf.to_lch, Leaf.from_lch, Color.constructGrey, Outcome.bind_eq_ok] at h
    obtain ⟨_, _, _, _, _, _, h⟩ := h
    split at h <;> exact construct_result (by simp) rfl h

theorem g_rgb_deep_to_hsl : Good .rgbDeep .hsl Val.rgb_deep_to_hsl where
  total w c hc hw := by
    obtain ⟨x, y, z, hc⟩ := isColor_three rfl hc
    rw [hc]
    simp only [Val.rgb_deep_to_hsl, Leaf.rgb_deep_to_hsl, Leaf.to_lch, Leaf.from_lch, Color.constructGrey, get3_0, get3_1, get3_2, get1_0, get4_0, get4_1, get4_2, get4_3, ok_bind, World.space, World.white]
    total_finish
  result w c c' h := by
    simp only [Val.rgb_deep_to_hsl, Leaf.rgb_deep_to_hsl, Leaf.to_lch, Leaf.from_lch, Color.constructGrey, Outcome.bind_eq_ok] at h
    obtain ⟨_, _, _, _, _, _, h⟩ := h
    split at h <;> exact construct_result (by simp) rfl h

theorem g_rgb_deep_to_hcy : Good .rgbDeep .hcy Val.rgb_deep_to_hcy where
  total w c hc hw := by
    obtain ⟨x, y, z, hc⟩ := isColor_three rfl hc
    rw [hc]
    simp only [Val.rgb_deep_to_hcy, Leaf.rgb_deep_to_hcy, Leaf.to_lch, Leaf.from_lch, Color.constructGrey, get3_0, get3_1, get3_2, get1_0, get4_0, get4_1, get4_2, get4_3, ok_bind, World.space, World.white]
    total_finish
  result w c c' h := by
    simp only [Val.rgb_deep_to_hcy, Leaf.rgb_deep_to_hcy, Leaf.to_lch, Leaf.from_lch, Color.constructGrey, Outcome.bind_eq_ok] at h
    obtain ⟨_, _, _, _, _, _, h⟩ := h
    split at h <;> exact construct_result (by simp) rfl h

theorem g_rgb_deep_to_xyz : Good .rgbDeep .xyz Val.rgb_deep_to_xyz where
  total w c hc hw := by
    obtain ⟨x, y, z, hc⟩ := isColor_three rfl hc
    obtain ⟨sp, hsp, hu⟩ := hw (by decide)
    obtain ⟨wp, hwp⟩ := Option.ne_none_iff_exists'.mp hu.white
    obtain ⟨gm, hgm⟩ := Option.ne_none_iff_exists'.mp hu.gamma
    obtain ⟨m11, m12, m13, m21, m22, m23, m31, m32, m33, hm⟩ := Mat.shape3_get hu.transform
    obtain ⟨n11, n12, n13, n21, n22, n23, n31, n32, n33, hn⟩ := Mat.shape3_get hu.inverse
    rw [hsp] at hc
    rw [hc]
    simp only [Val.rgb_deep_to_xyz, Leaf.inverseGamma, Leaf.linear_to_xyz, World.space, World.gamma, hgm, ok_bind, Color.applyGamma, List.map, hm, Mat.mulVec_shape3, Mat.vget, List.getElem?_cons_zero, List.getElem?_cons_succ]
    total_finish
  result w c c' h := by
    simp only [Val.rgb_deep_to_xyz, Leaf.linear_to_xyz, Leaf.inverseGamma, Outcome.bind_eq_ok, ok_inj] at h
    obtain ⟨_, ⟨_, _, _, _, rfl⟩, _, _, _, _, _, _, _, _, _, _, h⟩ := h
    exact construct_result (by simp) rfl h

theorem g_grey_true_to_rgb_true : Good .greyTrue .rgbTrue Val.grey_true_to_rgb_true where
  total w c hc hw := by
    obtain ⟨x, hc⟩ := isColor_one rfl hc
    rw [hc]
    simp only [Val.grey_true_to_rgb_true, Leaf.grey_true_to_rgb_true, Leaf.to_lch, Leaf.from_lch, Color.constructGrey, get3_0, get3_1, get3_2, get1_0, get4_0, get4_1, get4_2, get4_3, ok_bind, World.space, World.white]
    total_finish
  result w c c' h := by
    simp only [Val.grey_true_to_rgb_true, Leaf.grey_true_to_rgb_true, Leaf.to_lch, Leaf.from_lch, Color.constructGrey, Outcome.bind_eq_ok] at h
    obtain ⟨_, _, h⟩ := h
    exact construct_result (by simp) rfl h

theorem g_grey_true_to_rgb_deep : Good .greyTrue .rgbDeep Val.grey_true_to_rgb_deep where
  total w c hc hw := by
    obtain ⟨x, hc⟩ := isColor_one rfl hc
    rw [hc]
    simp only [Val.grey_true_to_rgb_deep, Leaf.grey_true_to_rgb_deep, Leaf.to_lch, Leaf.from_lch, Color.constructGrey, get3_0, get3_1, get3_2, get1_0, get4_0, get4_1, get4_2, get4_3, ok_bind, World.space, World.white]
    total_finish
  result w c c' h := by
    simp only [Val.grey_true_to_rgb_deep, Leaf.grey_true_to_rgb_deep, Leaf.to_lch, Leaf.from_lch, Color.constructGrey, Outcome.bind_eq_ok] at h
    obtain ⟨_, _, h⟩ := h
    exact construct_result (by simp) rfl h

theorem g_grey_true_to_grey_deep : Good .greyTrue .greyDeep Val.grey_true_to_grey_deep where
  total w c hc hw := by
    obtain ⟨x, hc⟩ := isColor_one rfl hc
    rw [hc]
    simp only [Val.grey_true_to_grey_deep, Leaf.grey_true_to_grey_deep, Leaf.to_lch, Leaf.from_lch, Color.constructGrey, get3_0, get3_1, get3_2, get1_0, get4_0, get4_1, get4_2, get4_3, ok_bind, World.space, World.white]
    total_finish
  result w c c' h := by
    simp only [Val.grey_true_to_grey_deep, Leaf.grey_true_to_grey_deep, Leaf.to_lch, Leaf.from_lch, Color.constructGrey, Outcome.bind_eq_ok] at h
    obtain ⟨_, _, h⟩ := h
    exact construct_result (by simp) rfl h

theorem g_grey_deep_to_rgb_true : Good .greyDeep .rgbTrue Val.grey_deep_to_rgb_true where
  total w c hc hw := by
    obtain ⟨x, hc⟩ := isColor_one rfl hc
    rw [hc]
    simp only [Val.grey_deep_to_rgb_true, Leaf.grey_deep_to_rgb_true, Leaf.to_lch, Leaf.from_lch, Color.constructGrey, get3_0, get3_1, get3_2, get1_0, get4_0, get4_1, get4_2, get4_3, ok_bind, World.space, World.white]
    total_finish
  result w c c' h := by
    simp only [Val.grey_deep_to_rgb_true, Leaf.grey_deep_to_rgb_true, Leaf.to_lch, Leaf.from_lch, Color.constructGrey, Outcome.bind_eq_ok] at h
    obtain ⟨_, _, h⟩ := h
    exact construct_result (by simp) rfl h

theorem g_grey_deep_to_rgb_deep : Good .greyDeep .rgbDeep Val.grey_deep_to_rgb_deep where
  total w c hc hw := by
    obtain ⟨x, hc⟩ := isColor_one rfl hc
    rw [hc]
    simp only [Val.grey_deep_to_rgb_deep, Leaf.grey_deep_to_rgb_deep, Leaf.to_lch, Leaf.from_lch, Color.constructGrey, get3_0, get3_1, get3_2, get1_0, get4_0, get4_1, get4_2, get4_3, ok_bind, World.space, World.white]
    total_finish
  result w c c' h := by
    simp only [Val.grey_deep_to_rgb_deep, Leaf.grey_deep_to_rgb_deep, Leaf.to_lch, Leaf.from_lch, Color.constructGrey, Outcome.bind_eq_ok] at h
    obtain ⟨_, _, h⟩ := h
    exact construct_result (by simp) rfl h

theorem g_grey_deep_to_grey_true : Good .greyDeep .greyTrue Val.grey_deep_to_grey_true where
  total w c hc hw := by
    obtain ⟨x, hc⟩ := isColor_one rfl hc
    rw [hc]
    simp only [Val.grey_deep_to_grey_true, Leaf.grey_deep_to_grey_true, Leaf.to_lch, Leaf.from_lch, Color.constructGrey, get3_0, get3_1, get3_2, get1_0, get4_0, get4_1, get4_2, get4_3, ok_bind, World.space, World.white]
    total_finish
  result w c c' h := by
    simp only [Val.grey_deep_to_grey_true, Leaf.grey_deep_to_grey_true, Leaf.to_lch, Leaf.from_lch, Color.constructGrey, Outcome.bind_eq_ok] at h
    obtain ⟨_, _, h⟩ := h
    exact construct_result (by simp) rfl h

theorem g_cmyk_to_rgb_deep : Good .cmyk .rgbDeep Val.cmyk_to_rgb_deep where
  total w c hc hw := by
    obtain ⟨x, y, z, u, hc⟩ := isColor_four rfl hc
    rw [hc]
    simp only [Val.cmyk_to_rgb_deep, Leaf.cmyk_to_rgb_deep, Leaf.to_lch, Leaf.from_lch, Color.constructGrey, get3_0, get3_1, get3_2, get1_0, get4_0, get4_1, get4_2, get4_3, ok_bind, World.space, World.white]
    total_finish
  result w c c' h := by
    simp only [Val.cmyk_to_rgb_deep, Leaf.cmyk_to_rgb_deep, Leaf.to_lch, Leaf.from_lch, Color.constructGrey, Outcome.bind_eq_ok] at h
    obtain ⟨_, _, _, _, _, _, _, _, h⟩ := h
    exact construct_result (by simp) rfl h

theorem g_hsi_to_rgb_deep : Good .hsi .rgbDeep Val.hsi_to_rgb_deep where
  total w c hc hw := by
    obtain ⟨x, y, z, hc⟩ := isColor_three rfl hc
    rw [hc]
    simp only [Val.hsi_to_rgb_deep, Leaf.hsi_to_rgb_deep, Color.constructGrey, get3_0, get3_1, get3_2, ok_bind]
    split
    · exact construct_total _ _ _ rfl
    · exact construct_total _ _ _ (sector_length _ _ _)
  result w c c' h := by
    simp only [Val.hsi_to_rgb_deep, Leaf.hsi_to_rgb_deep, Color.constructGrey, Outcome.bind_eq_ok] at h
    obtain ⟨_, _, _, _, _, _, h⟩ := h
    split at h
    · exact construct_result (by simp) rfl h
    · exact construct_result (by simp) (sector_length _ _ _) h

theorem g_hsv_to_rgb_deep : Good .hsv .rgbDeep Val.hsv_to_rgb_deep where
  total w c hc hw := by
    obtain ⟨x, y, z, hc⟩ := isColor_three rfl hc
    rw [hc]
    simp only [Val.hsv_to_rgb_deep, Leaf.hsv_to_rgb_deep, Leaf.to_lch, Leaf.from_lch, Color.constructGrey, get3_0, get3_1, get3_2, get1_0, get4_0, get4_1, get4_2, get4_3, ok_bind, World.space, World.white]
    total_finish
  result w c c' h := by
    simp only [Val.hsv_to_rgb_deep, Leaf.hsv_to_rgb_deep, Leaf.to_lch, Leaf.from_lch, Color.constructGrey, Outcome.bind_eq_ok] at h
    obtain ⟨_, _, _, _, _, _, h⟩ := h
    exact construct_result (by simp) rfl h

theorem g_hsv_to_hsl : Good .hsv .hsl Val.hsv_to_hsl where
  total w c hc hw := by
    obtain ⟨x, y, z, hc⟩ := isColor_three rfl hc
    rw [hc]
    simp only [Val.hsv_to_hsl, Leaf.hsv_to_hsl, Leaf.to_lch, Leaf.from_lch, Color.constructGrey, get3_0, get3_1, get3_2, get1_0, get4_0, get4_1, get4_2, get4_3, ok_bind, World.space, World.white]
    total_finish
  result w c c' h := by
    simp only [Val.hsv_to_hsl, Leaf.hsv_to_hsl, Leaf.to_lch, Leaf.from_lch, Color.constructGrey, Outcome.bind_eq_ok] at h
    obtain ⟨_, _, _, _, _, _, h⟩ := h
    exact construct_result (by simp) rfl h

theorem g_hsl_to_rgb_deep : Good .hsl .rgbDeep Val.hsl_to_rgb_deep where
  total w c hc hw := by
    obtain ⟨x, y, z, hc⟩ := isColor_three rfl hc
    rw [hc]
    simp only [Val.hsl_to_rgb_deep, Leaf.hsl_to_rgb_deep, Leaf.to_lch, Leaf.from_lch, Color.constructGrey, get3_0, get3_1, get3_2, get1_0, get4_0, get4_1, get4_2, get4_3, ok_bind, World.space, World.white]
    total_finish
  result w c c' h := by
    simp only [Val.hsl_to_rgb_deep, Leaf.hsl_to_rgb_deep, Leaf.to_lch, Leaf.from_lch, Color.constructGrey, Outcome.bind_eq_ok] at h
    obtain ⟨_, _, _, _, _, _, h⟩ := h
    split at h <;> exact construct_result (by simp) rfl h

theorem g_hsl_to_hsv : Good .hsl .hsv Val.hsl_to_hsv where
  total w c hc hw := by
    obtain ⟨x, y, z, hc⟩ := isColor_three rfl hc
    rw [hc]
    simp only [Val.hsl_to_hsv, Leaf.hsl_to_hsv, Leaf.to_lch, Leaf.from_lch, Color.constructGrey, get3_0, get3_1, get3_2, get1_0, get4_0, get4_1, get4_2, get4_3, ok_bind, World.space, World.white]
    total_finish
  result w c c' h := by
    simp only [Val.hsl_to_hsv, Leaf.hsl_to_hsv, Leaf.to_lch, Leaf.from_lch, Color.constructGrey, Outcome.bind_eq_ok] at h
    obtain ⟨_, _, _, _, _, _, h⟩ := h
    exact construct_result (by simp) rfl h

theorem g_hcy_to_rgb_deep : Good .hcy .rgbDeep Val.hcy_to_rgb_deep where
  total w c hc hw := by
    obtain ⟨x, y, z, hc⟩ := isColor_three rfl hc
    rw [hc]
    simp only [Val.hcy_to_rgb_deep, Leaf.hcy_to_rgb_deep, Leaf.to_lch, Leaf.from_lch, Color.constructGrey, get3_0, get3_1, get3_2, get1_0, get4_0, get4_1, get4_2, get4_3, ok_bind, World.space, World.white]
    total_finish
  result w c c' h := by
    simp only [Val.hcy_to_rgb_deep, Leaf.hcy_to_rgb_deep, Leaf.to_lch, Leaf.from_lch, Color.constructGrey, Outcome.bind_eq_ok] at h
    obtain ⟨_, _, _, _, _, _, h⟩ := h
    exact construct_result (by simp) rfl h

theorem g_xyz_to_rgb_deep : Good .xyz .rgbDeep Val.xyz_to_rgb_deep where
  total w c hc hw := by
    obtain ⟨x, y, z, hc⟩ := isColor_three rfl hc
    obtain ⟨sp, hsp, hu⟩ := hw (by decide)
    obtain ⟨wp, hwp⟩ := Option.ne_none_iff_exists'.mp hu.white
    obtain ⟨gm, hgm⟩ := Option.ne_none_iff_exists'.mp hu.gamma
    obtain ⟨m11, m12, m13, m21, m22, m23, m31, m32, m33, hm⟩ := Mat.shape3_get hu.transform
    obtain ⟨n11, n12, n13, n21, n22, n23, n31, n32, n33, hn⟩ := Mat.shape3_get hu.inverse
    rw [hsp] at hc
    rw [hc]
    simp only [Val.xyz_to_rgb_deep, Leaf.xyz_to_rgb_deep, World.space, ok_bind, hn, Mat.mulVec_shape3, Mat.vget, List.getElem?_cons_zero, List.getElem?_cons_succ, Color.construct_rgbDeep]
    simp [Color.mkRgbDeep, Color.setChannel, Color.setComponent, Color.setComponentLim, Leaf.forwardGamma, World.space, World.gamma, hgm]
  result w c c' h := by
    simp only [Val.xyz_to_rgb_deep, Leaf.xyz_to_rgb_deep, Leaf.forwardGamma, Outcome.bind_eq_ok, ok_inj] at h
    obtain ⟨_, _, _, _, _, _, _, _, _, _, d, hd, _, _, d1, h1, _, _, d2, h2, _, _, d3, h3, _, _, _, _, rfl⟩ := h
    obtain ⟨i1, _, _, i3⟩ := construct_result (by simp) rfl hd
    obtain ⟨a1, a2, _, a4, a5, a6, a7, _⟩ := ObjectLemmas.setChannel_frame h1
    obtain ⟨b1, b2, _, b4, b5, b6, b7, _⟩ := ObjectLemmas.setChannel_frame h2
    obtain ⟨c1, c2, _, c4, c5, c6, c7, _⟩ := ObjectLemmas.setChannel_frame h3
    have hmax : d3.maxv = Color.maxOf .rgbDeep := c4.trans (b4.trans (a4.trans i1.maxv))
    have hmin : d3.minv = Color.minOf .rgbDeep := c5.trans (b5.trans (a5.trans i1.minv))
    have hty : d3.ctype = .rgbDeep := c2.trans (b2.trans (a2.trans i1.ctype))
    refine ⟨⟨c1.trans (b1.trans (a1.trans i1.cls)), hty, ?_, hmax, hmin⟩, ?_, by simp, c6.trans (b6.trans (a6.trans i3))⟩
    · simpa [Color.applyGamma] using c7.trans (b7.trans (a7.trans i1.len))
    · intro i hi
      simp only [Color.applyGamma, List.getElem_map, hmax, hmin, hty]
      exact ObjectLemmas.clamp_channel _ _ _

theorem g_xyz_to_xyy : Good .xyz .xyy Val.xyz_to_xyy where
  total w c hc hw := by
    obtain ⟨x, y, z, hc⟩ := isColor_three rfl hc
    obtain ⟨sp, hsp, hu⟩ := hw (by decide)
    obtain ⟨wp, hwp⟩ := Option.ne_none_iff_exists'.mp hu.white
    obtain ⟨gm, hgm⟩ := Option.ne_none_iff_exists'.mp hu.gamma
    obtain ⟨m11, m12, m13, m21, m22, m23, m31, m32, m33, hm⟩ := Mat.shape3_get hu.transform
    obtain ⟨n11, n12, n13, n21, n22, n23, n31, n32, n33, hn⟩ := Mat.shape3_get hu.inverse
    rw [hsp] at hc
    rw [hc]
    simp only [Val.xyz_to_xyy, Leaf.xyz_to_xyy, Leaf.to_lch, Leaf.from_lch, Color.constructGrey, get3_0, get3_1, get3_2, get1_0, get4_0, get4_1, get4_2, get4_3, ok_bind, World.space, World.white, hwp]
    total_finish
  result w c c' h := by
    simp only [Val.xyz_to_xyy, Leaf.xyz_to_xyy, Leaf.to_lch, Leaf.from_lch, Color.constructGrey, Outcome.bind_eq_ok] at h
    obtain ⟨_, _, _, _, _, _, h⟩ := h
    split at h
    · simp only [Outcome.bind_eq_ok] at h
      obtain ⟨_, _, _, _, h⟩ := h
      exact construct_result (by simp) rfl h
    · exact construct_result (by simp) rfl h

theorem g_xyz_to_cieluv : Good .xyz .cieluv Val.xyz_to_cieluv where
  total w c hc hw := by
    obtain ⟨x, y, z, hc⟩ := isColor_three rfl hc
    obtain ⟨sp, hsp, hu⟩ := hw (by decide)
    obtain ⟨wp, hwp⟩ := Option.ne_none_iff_exists'.mp hu.white
    obtain ⟨gm, hgm⟩ := Option.ne_none_iff_exists'.mp hu.gamma
    obtain ⟨m11, m12, m13, m21, m22, m23, m31, m32, m33, hm⟩ := Mat.shape3_get hu.transform
    obtain ⟨n11, n12, n13, n21, n22, n23, n31, n32, n33, hn⟩ := Mat.shape3_get hu.inverse
    rw [hsp] at hc
    rw [hc]
    simp only [Val.xyz_to_cieluv, Leaf.xyz_to_cieluv, Leaf.to_lch, Leaf.from_lch, Color.constructGrey, get3_0, get3_1, get3_2, get1_0, get4_0, get4_1, get4_2, get4_3, ok_bind, World.space, World.white, hwp]
    total_finish
  result w c c' h := by
    simp only [Val.xyz_to_cieluv, Leaf.xyz_to_cieluv, Leaf.to_lch, Leaf.from_lch, Color.constructGrey, Outcome.bind_eq_ok] at h
    obtain ⟨_, _, _, _, _, _, _, _, _, _, h⟩ := h
    exact construct_result (by simp) rfl h

theorem g_xyz_to_lab : Good .xyz .lab Val.xyz_to_lab where
  total w c hc hw := by
    obtain ⟨x, y, z, hc⟩ := isColor_three rfl hc
    obtain ⟨sp, hsp, hu⟩ := hw (by decide)
    obtain ⟨wp, hwp⟩ := Option.ne_none_iff_exists'.mp hu.white
    obtain ⟨gm, hgm⟩ := Option.ne_none_iff_exists'.mp hu.gamma
    obtain ⟨m11, m12, m13, m21, m22, m23, m31, m32, m33, hm⟩ := Mat.shape3_get hu.transform
    obtain ⟨n11, n12, n13, n21, n22, n23, n31, n32, n33, hn⟩ := Mat.shape3_get hu.inverse
    rw [hsp] at hc
    rw [hc]
    simp only [Val.xyz_to_lab, Leaf.xyz_to_lab, Leaf.to_lch, Leaf.from_lch, Color.constructGrey, get3_0, get3_1, get3_2, get1_0, get4_0, get4_1, get4_2, get4_3, ok_bind, World.space, World.white, hwp]
    total_finish
  result w c c' h := by
    simp only [Val.xyz_to_lab, Leaf.xyz_to_lab, Leaf.to_lch, Leaf.from_lch, Color.constructGrey, Outcome.bind_eq_ok] at h
    obtain ⟨_, _, _, _, _, _, _, _, _, _, d, hd, h⟩ := h
    rw [ok_inj] at h
    subst h
    exact setAlpha_result _ (construct_result (by simp) rfl hd)

theorem g_xyy_to_xyz : Good .xyy .xyz Val.xyy_to_xyz where
  total w c hc hw := by
    obtain ⟨x, y, z, hc⟩ := isColor_three rfl hc
    rw [hc]
    simp only [Val.xyy_to_xyz, Leaf.xyy_to_xyz, Leaf.to_lch, Leaf.from_lch, Color.constructGrey, get3_0, get3_1, get3_2, get1_0, get4_0, get4_1, get4_2, get4_3, ok_bind, World.space, World.white]
    total_finish
  result w c c' h := by
    simp only [Val.xyy_to_xyz, Leaf.xyy_to_xyz, Leaf.to_lch, Leaf.from_lch, Color.constructGrey, Outcome.bind_eq_ok] at h
    obtain ⟨_, _, _, _, _, _, h⟩ := h
    split at h <;> exact construct_result (by simp) rfl h

theorem g_cieluv_to_xyz : Good .cieluv .xyz Val.cieluv_to_xyz where
  total w c hc hw := by
    obtain ⟨x, y, z, hc⟩ := isColor_three rfl hc
    obtain ⟨sp, hsp, hu⟩ := hw (by decide)
    obtain ⟨wp, hwp⟩ := Option.ne_none_iff_exists'.mp hu.white
    obtain ⟨gm, hgm⟩ := Option.ne_none_iff_exists'.mp hu.gamma
    obtain ⟨m11, m12, m13, m21, m22, m23, m31, m32, m33, hm⟩ := Mat.shape3_get hu.transform
    obtain ⟨n11, n12, n13, n21, n22, n23, n31, n32, n33, hn⟩ := Mat.shape3_get hu.inverse
    rw [hsp] at hc
    rw [hc]
    simp only [Val.cieluv_to_xyz, Leaf.cieluv_to_xyz, Leaf.to_lch, Leaf.from_lch, Color.constructGrey, get3_0, get3_1, get3_2, get1_0, get4_0, get4_1, get4_2, get4_3, ok_bind, World.space, World.white, hwp]
    total_finish
  result w c c' h := by
    simp only [Val.cieluv_to_xyz, Leaf.cieluv_to_xyz, Leaf.to_lch, Leaf.from_lch, Color.constructGrey, Outcome.bind_eq_ok] at h
    obtain ⟨_, _, _, _, _, _, _, _, _, _, h⟩ := h
    exact construct_result (by simp) rfl h

theorem g_cieluv_to_lch_uv : Good .cieluv .lchUv Val.cieluv_to_lch_uv where
  total w c hc hw := by
    obtain ⟨x, y, z, hc⟩ := isColor_three rfl hc
    rw [hc]
    simp only [Val.cieluv_to_lch_uv, Leaf.cieluv_to_lch_uv, Leaf.to_lch, Leaf.from_lch, Color.constructGrey, get3_0, get3_1, get3_2, get1_0, get4_0, get4_1, get4_2, get4_3, ok_bind, World.space, World.white]
    total_finish
  result w c c' h := by
    simp only [Val.cieluv_to_lch_uv, Leaf.cieluv_to_lch_uv, Leaf.to_lch, Leaf.from_lch, Color.constructGrey, Outcome.bind_eq_ok] at h
    obtain ⟨_, _, _, _, _, _, d, hd, h⟩ := h
    rw [ok_inj] at h
    subst h
    exact setAlpha_result _ (construct_result (by simp) rfl hd)

theorem g_lab_to_xyz : Good .lab .xyz Val.lab_to_xyz where
  total w c hc hw := by
    obtain ⟨x, y, z, hc⟩ := isColor_three rfl hc
    obtain ⟨sp, hsp, hu⟩ := hw (by decide)
    obtain ⟨wp, hwp⟩ := Option.ne_none_iff_exists'.mp hu.white
    obtain ⟨gm, hgm⟩ := Option.ne_none_iff_exists'.mp hu.gamma
    obtain ⟨m11, m12, m13, m21, m22, m23, m31, m32, m33, hm⟩ := Mat.shape3_get hu.transform
    obtain ⟨n11, n12, n13, n21, n22, n23, n31, n32, n33, hn⟩ := Mat.shape3_get hu.inverse
    rw [hsp] at hc
    rw [hc]
    simp only [Val.lab_to_xyz, Leaf.lab_to_xyz, Leaf.to_lch, Leaf.from_lch, Color.constructGrey, get3_0, get3_1, get3_2, get1_0, get4_0, get4_1, get4_2, get4_3, ok_bind, World.space, World.white, hwp]
    total_finish
  result w c c' h := by
    simp only [Val.lab_to_xyz, Leaf.lab_to_xyz, Leaf.to_lch, Leaf.from_lch, Color.constructGrey, Outcome.bind_eq_ok] at h
    obtain ⟨_, _, _, _, _, _, _, _, _, _, d, hd, h⟩ := h
    rw [ok_inj] at h
    subst h
    exact setAlpha_result _ (construct_result (by simp) rfl hd)

theorem g_lab_to_lch_ab : Good .lab .lchAb Val.lab_to_lch_ab where
  total w c hc hw := by
    obtain ⟨x, y, z, hc⟩ := isColor_three rfl hc
    rw [hc]
    simp only [Val.lab_to_lch_ab, Leaf.lab_to_lch_ab, Leaf.to_lch, Leaf.from_lch, Color.constructGrey, get3_0, get3_1, get3_2, get1_0, get4_0, get4_1, get4_2, get4_3, ok_bind, World.space, World.white]
    total_finish
  result w c c' h := by
    simp only [Val.lab_to_lch_ab, Leaf.lab_to_lch_ab, Leaf.to_lch, Leaf.from_lch, Color.constructGrey, Outcome.bind_eq_ok] at h
    obtain ⟨_, _, _, _, _, _, d, hd, h⟩ := h
    rw [ok_inj] at h
    subst h
    exact setAlpha_result _ (construct_result (by simp) rfl hd)

theorem g_lch_ab_to_lab : Good .lchAb .lab Val.lch_ab_to_lab where
  total w c hc hw := by
    obtain ⟨x, y, z, hc⟩ := isColor_three rfl hc
    rw [hc]
    simp only [Val.lch_ab_to_lab, Leaf.lch_ab_to_lab, Leaf.to_lch, Leaf.from_lch, Color.constructGrey, get3_0, get3_1, get3_2, get1_0, get4_0, get4_1, get4_2, get4_3, ok_bind, World.space, World.white]
    total_finish
  result w c c' h := by
    simp only [Val.lch_ab_to_lab, Leaf.lch_ab_to_lab, Leaf.to_lch, Leaf.from_lch, Color.constructGrey, Outcome.bind_eq_ok] at h
    obtain ⟨_, _, _, _, _, _, d, hd, h⟩ := h
    rw [ok_inj] at h
    subst h
    exact setAlpha_result _ (construct_result (by simp) rfl hd)

theorem g_lch_uv_to_cieluv : Good .lchUv .cieluv Val.lch_uv_to_cieluv where
  total w c hc hw := by
    obtain ⟨x, y, z, hc⟩ := isColor_three rfl hc
    rw [hc]
    simp only [Val.lch_uv_to_cieluv, Leaf.lch_uv_to_cieluv, Leaf.to_lch, Leaf.from_lch, Color.constructGrey, get3_0, get3_1, get3_2, get1_0, get4_0, get4_1, get4_2, get4_3, ok_bind, World.space, World.white]
    total_finish
  result w c c' h := by
    simp only [Val.lch_uv_to_cieluv, Leaf.lch_uv_to_cieluv, Leaf.to_lch, Leaf.from_lch, Color.constructGrey, Outcome.bind_eq_ok] at h
    obtain ⟨_, _, _, _, _, _, d, hd, h⟩ := h
    rw [ok_inj] at h
    subst h
    exact setAlpha_result _ (construct_result (by simp) rfl hd)

theorem g_rgb_true_to_cmyk : Good .rgbTrue .cmyk Val.rgb_true_to_cmyk := Good.comp g_rgb_true_to_rgb_deep g_rgb_deep_to_cmyk (by decide)
theorem g_rgb_true_to_hsi : Good .rgbTrue .hsi Val.rgb_true_to_hsi := Good.comp g_rgb_true_to_rgb_deep g_rgb_deep_to_hsi (by decide)
theorem g_rgb_true_to_hsv : Good .rgbTrue .hsv Val.rgb_true_to_hsv := Good.comp g_rgb_true_to_rgb_deep g_rgb_deep_to_hsv (by decide)
theorem g_rgb_true_to_hsl : Good .rgbTrue .hsl Val.rgb_true_to_hsl := Good.comp g_rgb_true_to_rgb_deep g_rgb_deep_to_hsl (by decide)
theorem g_rgb_true_to_hcy : Good .rgbTrue .hcy Val.rgb_true_to_hcy := Good.comp g_rgb_true_to_rgb_deep g_rgb_deep_to_hcy (by decide)
theorem g_rgb_true_to_xyz : Good .rgbTrue .xyz Val.rgb_true_to_xyz := Good.comp g_rgb_true_to_rgb_deep g_rgb_deep_to_xyz (by decide)
theorem g_rgb_true_to_xyy : Good .rgbTrue .xyy Val.rgb_true_to_xyy := Good.comp g_rgb_true_to_xyz g_xyz_to_xyy (by decide)
theorem g_rgb_true_to_cieluv : Good .rgbTrue .cieluv Val.rgb_true_to_cieluv := Good.comp g_rgb_true_to_xyz g_xyz_to_cieluv (by decide)
theorem g_rgb_deep_to_lab : Good .rgbDeep .lab Val.rgb_deep_to_lab := Good.comp g_rgb_deep_to_xyz g_xyz_to_lab (by decide)
theorem g_rgb_true_to_lab : Good .rgbTrue .lab Val.rgb_true_to_lab := Good.comp g_rgb_true_to_rgb_deep g_rgb_deep_to_lab (by decide)
theorem g_rgb_true_to_lch_ab : Good .rgbTrue .lchAb Val.rgb_true_to_lch_ab := Good.comp g_rgb_true_to_lab g_lab_to_lch_ab (by decide)
theorem g_rgb_true_to_lch_uv : Good .rgbTrue .lchUv Val.rgb_true_to_lch_uv := Good.comp g_rgb_true_to_cieluv g_cieluv_to_lch_uv (by decide)
theorem g_rgb_deep_to_grey_true : Good .rgbDeep .greyTrue Val.rgb_deep_to_grey_true := Good.comp g_rgb_deep_to_rgb_true g_rgb_true_to_grey_true (by decide)
theorem g_rgb_deep_to_xyy : Good .rgbDeep .xyy Val.rgb_deep_to_xyy := Good.comp g_rgb_deep_to_xyz g_xyz_to_xyy (by decide)
theorem g_rgb_deep_to_cieluv : Good .rgbDeep .cieluv Val.rgb_deep_to_cieluv := Good.comp g_rgb_deep_to_xyz g_xyz_to_cieluv (by decide)
theorem g_rgb_deep_to_lch_ab : Good .rgbDeep .lchAb Val.rgb_deep_to_lch_ab := Good.comp g_rgb_deep_to_lab g_lab_to_lch_ab (by decide)
theorem g_rgb_deep_to_lch_uv : Good .rgbDeep .lchUv Val.rgb_deep_to_lch_uv := Good.comp g_rgb_deep_to_cieluv g_cieluv_to_lch_uv (by decide)
theorem g_grey_true_to_cmyk : Good .greyTrue .cmyk Val.grey_true_to_cmyk := Good.comp g_grey_true_to_rgb_deep g_rgb_deep_to_cmyk (by decide)
theorem g_grey_true_to_hsi : Good .greyTrue .hsi Val.grey_true_to_hsi := Good.comp g_grey_true_to_rgb_deep g_rgb_deep_to_hsi (by decide)
theorem g_grey_true_to_hsv : Good .greyTrue .hsv Val.grey_true_to_hsv := Good.comp g_grey_true_to_rgb_deep g_rgb_deep_to_hsv (by decide)
theorem g_grey_true_to_hsl : Good .greyTrue .hsl Val.grey_true_to_hsl := Good.comp g_grey_true_to_rgb_deep g_rgb_deep_to_hsl (by decide)
theorem g_grey_true_to_hcy : Good .greyTrue .hcy Val.grey_true_to_hcy := Good.comp g_grey_true_to_rgb_deep g_rgb_deep_to_hcy (by decide)
theorem g_grey_true_to_xyz : Good .greyTrue .xyz Val.grey_true_to_xyz := Good.comp g_grey_true_to_rgb_deep g_rgb_deep_to_xyz (by decide)
theorem g_grey_true_to_xyy : Good .greyTrue .xyy Val.grey_true_to_xyy := Good.comp g_grey_true_to_xyz g_xyz_to_xyy (by decide)
theorem g_grey_true_to_cieluv : Good .greyTrue .cieluv Val.grey_true_to_cieluv := Good.comp g_grey_true_to_xyz g_xyz_to_cieluv (by decide)
theorem g_grey_true_to_lab : Good .greyTrue .lab Val.grey_true_to_lab := Good.comp g_grey_true_to_rgb_deep g_rgb_deep_to_lab (by decide)
theorem g_grey_true_to_lch_ab : Good .greyTrue .lchAb Val.grey_true_to_lch_ab := Good.comp g_grey_true_to_lab g_lab_to_lch_ab (by decide)
theorem g_grey_true_to_lch_uv : Good .greyTrue .lchUv Val.grey_true_to_lch_uv := Good.comp g_grey_true_to_cieluv g_cieluv_to_lch_uv (by decide)
theorem g_grey_deep_to_cmyk : Good .greyDeep .cmyk Val.grey_deep_to_cmyk := Good.comp g_grey_deep_to_rgb_deep g_rgb_deep_to_cmyk (by decide)
theorem g_grey_deep_to_hsi : Good .greyDeep .hsi Val.grey_deep_to_hsi := Good.comp g_grey_deep_to_rgb_deep g_rgb_deep_to_hsi (by decide)
theorem g_grey_deep_to_hsv : Good .greyDeep .hsv Val.grey_deep_to_hsv := Good.comp g_grey_deep_to_rgb_deep g_rgb_deep_to_hsv (by decide)
theorem g_grey_deep_to_hsl : Good .greyDeep .hsl Val.grey_deep_to_hsl := Good.comp g_grey_deep_to_rgb_deep g_rgb_deep_to_hsl (by decide)
theorem g_grey_deep_to_hcy : Good .greyDeep .hcy Val.grey_deep_to_hcy := Good.comp g_grey_deep_to_rgb_deep g_rgb_deep_to_hcy (by decide)
theorem g_grey_deep_to_xyz : Good .greyDeep .xyz Val.grey_deep_to_xyz := Good.comp g_grey_deep_to_rgb_deep g_rgb_deep_to_xyz (by decide)
theorem g_grey_deep_to_xyy : Good .greyDeep .xyy Val.grey_deep_to_xyy := Good.comp g_grey_deep_to_xyz g_xyz_to_xyy (by decide)
theorem g_grey_deep_to_cieluv : Good .greyDeep .cieluv Val.grey_deep_to_cieluv := Good.comp g_grey_deep_to_xyz g_xyz_to_cieluv (by decide)
theorem g_grey_deep_to_lab : Good .greyDeep .lab Val.grey_deep_to_lab := Good.comp g_grey_deep_to_rgb_deep g_rgb_deep_to_lab (by decide)
theorem g_grey_deep_to_lch_ab : Good .greyDeep .lchAb Val.grey_deep_to_lch_ab := Good.comp g_grey_deep_to_lab g_lab_to_lch_ab (by decide)
theorem g_grey_deep_to_lch_uv : Good .greyDeep .lchUv Val.grey_deep_to_lch_uv := Good.comp g_grey_deep_to_cieluv g_cieluv_to_lch_uv (by decide)
theorem g_cmyk_to_rgb_true : Good .cmyk .rgbTrue Val.cmyk_to_rgb_true := Good.comp g_cmyk_to_rgb_deep g_rgb_deep_to_rgb_true (by decide)
theorem g_cmyk_to_grey_true : Good .cmyk .greyTrue Val.cmyk_to_grey_true := Good.comp g_cmyk_to_rgb_deep g_rgb_deep_to_grey_true (by decide)
theorem g_cmyk_to_grey_deep : Good .cmyk .greyDeep Val.cmyk_to_grey_deep := Good.comp g_cmyk_to_rgb_deep g_rgb_deep_to_grey_deep (by decide)
theorem g_cmyk_to_hsi : Good .cmyk .hsi Val.cmyk_to_hsi := Good.comp g_cmyk_to_rgb_deep g_rgb_deep_to_hsi (by decide)
theorem g_cmyk_to_hsv : Good .cmyk .hsv Val.cmyk_to_hsv := Good.comp g_cmyk_to_rgb_deep g_rgb_deep_to_hsv (by decide)
theorem g_cmyk_to_hsl : Good .cmyk .hsl Val.cmyk_to_hsl := Good.comp g_cmyk_to_rgb_deep g_rgb_deep_to_hsl (by decide)
theorem g_cmyk_to_hcy : Good .cmyk .hcy Val.cmyk_to_hcy := Good.comp g_cmyk_to_rgb_deep g_rgb_deep_to_hcy (by decide)
theorem g_cmyk_to_xyz : Good .cmyk .xyz Val.cmyk_to_xyz := Good.comp g_cmyk_to_rgb_deep g_rgb_deep_to_xyz (by decide)
theorem g_cmyk_to_xyy : Good .cmyk .xyy Val.cmyk_to_xyy := Good.comp g_cmyk_to_xyz g_xyz_to_xyy (by decide)
theorem g_cmyk_to_cieluv : Good .cmyk .cieluv Val.cmyk_to_cieluv := Good.comp g_cmyk_to_xyz g_xyz_to_cieluv (by decide)
theorem g_cmyk_to_lab : Good .cmyk .lab Val.cmyk_to_lab := Good.comp g_cmyk_to_rgb_deep g_rgb_deep_to_lab (by decide)
theorem g_cmyk_to_lch_ab : Good .cmyk .lchAb Val.cmyk_to_lch_ab := Good.comp g_cmyk_to_lab g_lab_to_lch_ab (by decide)
theorem g_cmyk_to_lch_uv : Good .cmyk .lchUv Val.cmyk_to_lch_uv := Good.comp g_cmyk_to_cieluv g_cieluv_to_lch_uv (by decide)
theorem g_hsi_to_rgb_true : Good .hsi .rgbTrue Val.hsi_to_rgb_true := Good.comp g_hsi_to_rgb_deep g_rgb_deep_to_rgb_true (by decide)
theorem g_hsi_to_grey_true : Good .hsi .greyTrue Val.hsi_to_grey_true := Good.comp g_hsi_to_rgb_deep g_rgb_deep_to_grey_true (by decide)
theorem g_hsi_to_grey_deep : Good .hsi .greyDeep Val.hsi_to_grey_deep := Good.comp g_hsi_to_rgb_deep g_rgb_deep_to_grey_deep (by decide)
theorem g_hsi_to_cmyk : Good .hsi .cmyk Val.hsi_to_cmyk := Good.comp g_hsi_to_rgb_deep g_rgb_deep_to_cmyk (by decide)
theorem g_hsi_to_hsv : Good .hsi .hsv Val.hsi_to_hsv := Good.comp g_hsi_to_rgb_deep g_rgb_deep_to_hsv (by decide)
theorem g_hsi_to_hsl : Good .hsi .hsl Val.hsi_to_hsl := Good.comp g_hsi_to_rgb_deep g_rgb_deep_to_hsl (by decide)
theorem g_hsi_to_hcy : Good .hsi .hcy Val.hsi_to_hcy := Good.comp g_hsi_to_rgb_deep g_rgb_deep_to_hcy (by decide)
theorem g_hsi_to_xyz : Good .hsi .xyz Val.hsi_to_xyz := Good.comp g_hsi_to_rgb_deep g_rgb_deep_to_xyz (by decide)
theorem g_hsi_to_xyy : Good .hsi .xyy Val.hsi_to_xyy := Good.comp g_hsi_to_rgb_deep g_rgb_deep_to_xyy (by decide)
theorem g_hsi_to_cieluv : Good .hsi .cieluv Val.hsi_to_cieluv := Good.comp g_hsi_to_rgb_deep g_rgb_deep_to_cieluv (by decide)
theorem g_hsi_to_lab : Good .hsi .lab Val.hsi_to_lab := Good.comp g_hsi_to_rgb_deep g_rgb_deep_to_lab (by decide)
theorem g_hsi_to_lch_ab : Good .hsi .lchAb Val.hsi_to_lch_ab := Good.comp g_hsi_to_rgb_deep g_rgb_deep_to_lch_ab (by decide)
theorem g_hsi_to_lch_uv : Good .hsi .lchUv Val.hsi_to_lch_uv := Good.comp g_hsi_to_rgb_deep g_rgb_deep_to_lch_uv (by decide)
theorem g_hsv_to_rgb_true : Good .hsv .rgbTrue Val.hsv_to_rgb_true := Good.comp g_hsv_to_rgb_deep g_rgb_deep_to_rgb_true (by decide)
theorem g_hsv_to_grey_true : Good .hsv .greyTrue Val.hsv_to_grey_true := Good.comp g_hsv_to_rgb_deep g_rgb_deep_to_grey_true (by decide)
theorem g_hsv_to_grey_deep : Good .hsv .greyDeep Val.hsv_to_grey_deep := Good.comp g_hsv_to_rgb_deep g_rgb_deep_to_grey_deep (by decide)
theorem g_hsv_to_cmyk : Good .hsv .cmyk Val.hsv_to_cmyk := Good.comp g_hsv_to_rgb_deep g_rgb_deep_to_cmyk (by decide)
theorem g_hsv_to_hsi : Good .hsv .hsi Val.hsv_to_hsi := Good.comp g_hsv_to_rgb_deep g_rgb_deep_to_hsi (by decide)
theorem g_hsv_to_hcy : Good .hsv .hcy Val.hsv_to_hcy := Good.comp g_hsv_to_rgb_deep g_rgb_deep_to_hcy (by decide)
theorem g_hsv_to_xyz : Good .hsv .xyz Val.hsv_to_xyz := Good.comp g_hsv_to_rgb_deep g_rgb_deep_to_xyz (by decide)
theorem g_hsv_to_xyy : Good .hsv .xyy Val.hsv_to_xyy := Good.comp g_hsv_to_xyz g_xyz_to_xyy (by decide)
theorem g_hsv_to_cieluv : Good .hsv .cieluv Val.hsv_to_cieluv := Good.comp g_hsv_to_xyz g_xyz_to_cieluv (by decide)
theorem g_hsv_to_lab : Good .hsv .lab Val.hsv_to_lab := Good.comp g_hsv_to_rgb_deep g_rgb_deep_to_lab (by decide)
theorem g_hsv_to_lch_ab : Good .hsv .lchAb Val.hsv_to_lch_ab := Good.comp g_hsv_to_lab g_lab_to_lch_ab (by decide)
theorem g_hsv_to_lch_uv : Good .hsv .lchUv Val.hsv_to_lch_uv := Good.comp g_hsv_to_cieluv g_cieluv_to_lch_uv (by decide)
theorem g_hsl_to_rgb_true : Good .hsl .rgbTrue Val.hsl_to_rgb_true := Good.comp g_hsl_to_rgb_deep g_rgb_deep_to_rgb_true (by decide)
theorem g_hsl_to_grey_true : Good .hsl .greyTrue Val.hsl_to_grey_true := Good.comp g_hsl_to_rgb_deep g_rgb_deep_to_grey_true (by decide)
theorem g_hsl_to_grey_deep : Good .hsl .greyDeep Val.hsl_to_grey_deep := Good.comp g_hsl_to_rgb_deep g_rgb_deep_to_grey_deep (by decide)
theorem g_hsl_to_cmyk : Good .hsl .cmyk Val.hsl_to_cmyk := Good.comp g_hsl_to_rgb_deep g_rgb_deep_to_cmyk (by decide)
theorem g_hsl_to_hsi : Good .hsl .hsi Val.hsl_to_hsi := Good.comp g_hsl_to_rgb_deep g_rgb_deep_to_hsi (by decide)
theorem g_hsl_to_hcy : Good .hsl .hcy Val.hsl_to_hcy := Good.comp g_hsl_to_rgb_deep g_rgb_deep_to_hcy (by decide)
theorem g_hsl_to_xyz : Good .hsl .xyz Val.hsl_to_xyz := Good.comp g_hsl_to_rgb_deep g_rgb_deep_to_xyz (by decide)
theorem g_hsl_to_xyy : Good .hsl .xyy Val.hsl_to_xyy := Good.comp g_hsl_to_xyz g_xyz_to_xyy (by decide)
theorem g_hsl_to_cieluv : Good .hsl .cieluv Val.hsl_to_cieluv := Good.comp g_hsl_to_xyz g_xyz_to_cieluv (by decide)
theorem g_hsl_to_lab : Good .hsl .lab Val.hsl_to_lab := Good.comp g_hsl_to_rgb_deep g_rgb_deep_to_lab (by decide)
theorem g_hsl_to_lch_ab : Good .hsl .lchAb Val.hsl_to_lch_ab := Good.comp g_hsl_to_lab g_lab_to_lch_ab (by decide)
theorem g_hsl_to_lch_uv : Good .hsl .lchUv Val.hsl_to_lch_uv := Good.comp g_hsl_to_cieluv g_cieluv_to_lch_uv (by decide)
theorem g_hcy_to_rgb_true : Good .hcy .rgbTrue Val.hcy_to_rgb_true := Good.comp g_hcy_to_rgb_deep g_rgb_deep_to_rgb_true (by decide)
theorem g_hcy_to_grey_true : Good .hcy .greyTrue Val.hcy_to_grey_true := Good.comp g_hcy_to_rgb_deep g_rgb_deep_to_grey_true (by decide)
theorem g_hcy_to_grey_deep : Good .hcy .greyDeep Val.hcy_to_grey_deep := Good.comp g_hcy_to_rgb_deep g_rgb_deep_to_grey_deep (by decide)
theorem g_hcy_to_cmyk : Good .hcy .cmyk Val.hcy_to_cmyk := Good.comp g_hcy_to_rgb_deep g_rgb_deep_to_cmyk (by decide)
theorem g_hcy_to_hsi : Good .hcy .hsi Val.hcy_to_hsi := Good.comp g_hcy_to_rgb_deep g_rgb_deep_to_hsi (by decide)
theorem g_hcy_to_hsv : Good .hcy .hsv Val.hcy_to_hsv := Good.comp g_hcy_to_rgb_deep g_rgb_deep_to_hsv (by decide)
theorem g_hcy_to_hsl : Good .hcy .hsl Val.hcy_to_hsl := Good.comp g_hcy_to_rgb_deep g_rgb_deep_to_hsl (by decide)
theorem g_hcy_to_xyz : Good .hcy .xyz Val.hcy_to_xyz := Good.comp g_hcy_to_rgb_deep g_rgb_deep_to_xyz (by decide)
theorem g_hcy_to_xyy : Good .hcy .xyy Val.hcy_to_xyy := Good.comp g_hcy_to_rgb_deep g_rgb_deep_to_xyy (by decide)
theorem g_hcy_to_cieluv : Good .hcy .cieluv Val.hcy_to_cieluv := Good.comp g_hcy_to_rgb_deep g_rgb_deep_to_cieluv (by decide)
theorem g_hcy_to_lab : Good .hcy .lab Val.hcy_to_lab := Good.comp g_hcy_to_rgb_deep g_rgb_deep_to_lab (by decide)
theorem g_hcy_to_lch_ab : Good .hcy .lchAb Val.hcy_to_lch_ab := Good.comp g_hcy_to_rgb_deep g_rgb_deep_to_lch_ab (by decide)
theorem g_hcy_to_lch_uv : Good .hcy .lchUv Val.hcy_to_lch_uv := Good.comp g_hcy_to_rgb_deep g_rgb_deep_to_lch_uv (by decide)
theorem g_xyz_to_rgb_true : Good .xyz .rgbTrue Val.xyz_to_rgb_true := Good.comp g_xyz_to_rgb_deep g_rgb_deep_to_rgb_true (by decide)
theorem g_xyz_to_grey_true : Good .xyz .greyTrue Val.xyz_to_grey_true := Good.comp g_xyz_to_rgb_deep g_rgb_deep_to_grey_true (by decide)
theorem g_xyz_to_grey_deep : Good .xyz .greyDeep Val.xyz_to_grey_deep := Good.comp g_xyz_to_rgb_deep g_rgb_deep_to_grey_deep (by decide)
theorem g_xyz_to_cmyk : Good .xyz .cmyk Val.xyz_to_cmyk := Good.comp g_xyz_to_rgb_deep g_rgb_deep_to_cmyk (by decide)
theorem g_xyz_to_hsi : Good .xyz .hsi Val.xyz_to_hsi := Good.comp g_xyz_to_rgb_deep g_rgb_deep_to_hsi (by decide)
theorem g_xyz_to_hsv : Good .xyz .hsv Val.xyz_to_hsv := Good.comp g_xyz_to_rgb_deep g_rgb_deep_to_hsv (by decide)
theorem g_xyz_to_hsl : Good .xyz .hsl Val.xyz_to_hsl := Good.comp g_xyz_to_rgb_deep g_rgb_deep_to_hsl (by decide)
theorem g_xyz_to_hcy : Good .xyz .hcy Val.xyz_to_hcy := Good.comp g_xyz_to_rgb_deep g_rgb_deep_to_hcy (by decide)
theorem g_xyz_to_lch_ab : Good .xyz .lchAb Val.xyz_to_lch_ab := Good.comp g_xyz_to_lab g_lab_to_lch_ab (by decide)
theorem g_xyz_to_lch_uv : Good .xyz .lchUv Val.xyz_to_lch_uv := Good.comp g_xyz_to_cieluv g_cieluv_to_lch_uv (by decide)
theorem g_xyy_to_rgb_true : Good .xyy .rgbTrue Val.xyy_to_rgb_true := Good.comp g_xyy_to_xyz g_xyz_to_rgb_true (by decide)
theorem g_xyy_to_rgb_deep : Good .xyy .rgbDeep Val.xyy_to_rgb_deep := Good.comp g_xyy_to_xyz g_xyz_to_rgb_deep (by decide)
theorem g_xyy_to_grey_true : Good .xyy .greyTrue Val.xyy_to_grey_true := Good.comp g_xyy_to_xyz g_xyz_to_grey_true (by decide)
theorem g_xyy_to_grey_deep : Good .xyy .greyDeep Val.xyy_to_grey_deep := Good.comp g_xyy_to_xyz g_xyz_to_grey_deep (by decide)
theorem g_xyy_to_cmyk : Good .xyy .cmyk Val.xyy_to_cmyk := Good.comp g_xyy_to_xyz g_xyz_to_cmyk (by decide)
theorem g_xyy_to_hsi : Good .xyy .hsi Val.xyy_to_hsi := Good.comp g_xyy_to_xyz g_xyz_to_hsi (by decide)
theorem g_xyy_to_hsv : Good .xyy .hsv Val.xyy_to_hsv := Good.comp g_xyy_to_xyz g_xyz_to_hsv (by decide)
theorem g_xyy_to_hsl : Good .xyy .hsl Val.xyy_to_hsl := Good.comp g_xyy_to_xyz g_xyz_to_hsl (by decide)
theorem g_xyy_to_hcy : Good .xyy .hcy Val.xyy_to_hcy := Good.comp g_xyy_to_xyz g_xyz_to_hcy (by decide)
theorem g_xyy_to_cieluv : Good .xyy .cieluv Val.xyy_to_cieluv := Good.comp g_xyy_to_xyz g_xyz_to_cieluv (by decide)
theorem g_xyy_to_lab : Good .xyy .lab Val.xyy_to_lab := Good.comp g_xyy_to_xyz g_xyz_to_lab (by decide)
theorem g_xyy_to_lch_ab : Good .xyy .lchAb Val.xyy_to_lch_ab := Good.comp g_xyy_to_lab g_lab_to_lch_ab (by decide)
theorem g_xyy_to_lch_uv : Good .xyy .lchUv Val.xyy_to_lch_uv := Good.comp g_xyy_to_cieluv g_cieluv_to_lch_uv (by decide)
theorem g_cieluv_to_rgb_true : Good .cieluv .rgbTrue Val.cieluv_to_rgb_true := Good.comp g_cieluv_to_xyz g_xyz_to_rgb_true (by decide)
theorem g_cieluv_to_rgb_deep : Good .cieluv .rgbDeep Val.cieluv_to_rgb_deep := Good.comp g_cieluv_to_xyz g_xyz_to_rgb_deep (by decide)
theorem g_cieluv_to_grey_true : Good .cieluv .greyTrue Val.cieluv_to_grey_true := Good.comp g_cieluv_to_xyz g_xyz_to_grey_true (by decide)
theorem g_cieluv_to_grey_deep : Good .cieluv .greyDeep Val.cieluv_to_grey_deep := Good.comp g_cieluv_to_xyz g_xyz_to_grey_deep (by decide)
theorem g_cieluv_to_cmyk : Good .cieluv .cmyk Val.cieluv_to_cmyk := Good.comp g_cieluv_to_xyz g_xyz_to_cmyk (by decide)
theorem g_cieluv_to_hsi : Good .cieluv .hsi Val.cieluv_to_hsi := Good.comp g_cieluv_to_xyz g_xyz_to_hsi (by decide)
theorem g_cieluv_to_hsv : Good .cieluv .hsv Val.cieluv_to_hsv := Good.comp g_cieluv_to_xyz g_xyz_to_hsv (by decide)
theorem g_cieluv_to_hsl : Good .cieluv .hsl Val.cieluv_to_hsl := Good.comp g_cieluv_to_xyz g_xyz_to_hsl (by decide)
theorem g_cieluv_to_hcy : Good .cieluv .hcy Val.cieluv_to_hcy := Good.comp g_cieluv_to_xyz g_xyz_to_hcy (by decide)
theorem g_cieluv_to_xyy : Good .cieluv .xyy Val.cieluv_to_xyy := Good.comp g_cieluv_to_xyz g_xyz_to_xyy (by decide)
theorem g_cieluv_to_lab : Good .cieluv .lab Val.cieluv_to_lab := Good.comp g_cieluv_to_xyz g_xyz_to_lab (by decide)
theorem g_cieluv_to_lch_ab : Good .cieluv .lchAb Val.cieluv_to_lch_ab := Good.comp g_cieluv_to_lab g_lab_to_lch_ab (by decide)
theorem g_lab_to_rgb_true : Good .lab .rgbTrue Val.lab_to_rgb_true := Good.comp g_lab_to_xyz g_xyz_to_rgb_true (by decide)
theorem g_lab_to_rgb_deep : Good .lab .rgbDeep Val.lab_to_rgb_deep := Good.comp g_lab_to_xyz g_xyz_to_rgb_deep (by decide)
theorem g_lab_to_grey_true : Good .lab .greyTrue Val.lab_to_grey_true := Good.comp g_lab_to_xyz g_xyz_to_grey_true (by decide)
theorem g_lab_to_grey_deep : Good .lab .greyDeep Val.lab_to_grey_deep := Good.comp g_lab_to_xyz g_xyz_to_grey_deep (by decide)
theorem g_lab_to_cmyk : Good .lab .cmyk Val.lab_to_cmyk := Good.comp g_lab_to_xyz g_xyz_to_cmyk (by decide)
theorem g_lab_to_hsi : Good .lab .hsi Val.lab_to_hsi := Good.comp g_lab_to_xyz g_xyz_to_hsi (by decide)
theorem g_lab_to_hsv : Good .lab .hsv Val.lab_to_hsv := Good.comp g_lab_to_xyz g_xyz_to_hsv (by decide)
theorem g_lab_to_hsl : Good .lab .hsl Val.lab_to_hsl := Good.comp g_lab_to_xyz g_xyz_to_hsl (by decide)
theorem g_lab_to_hcy : Good .lab .hcy Val.lab_to_hcy := Good.comp g_lab_to_xyz g_xyz_to_hcy (by decide)
theorem g_lab_to_xyy : Good .lab .xyy Val.lab_to_xyy := Good.comp g_lab_to_xyz g_xyz_to_xyy (by decide)
theorem g_lab_to_cieluv : Good .lab .cieluv Val.lab_to_cieluv := Good.comp g_lab_to_xyz g_xyz_to_cieluv (by decide)
theorem g_lab_to_lch_uv : Good .lab .lchUv Val.lab_to_lch_uv := Good.comp g_lab_to_cieluv g_cieluv_to_lch_uv (by decide)
theorem g_lch_ab_to_rgb_true : Good .lchAb .rgbTrue Val.lch_ab_to_rgb_true := Good.comp g_lch_ab_to_lab g_lab_to_rgb_true (by decide)
theorem g_lch_ab_to_rgb_deep : Good .lchAb .rgbDeep Val.lch_ab_to_rgb_deep := Good.comp g_lch_ab_to_lab g_lab_to_rgb_deep (by decide)
theorem g_lch_ab_to_grey_true : Good .lchAb .greyTrue Val.lch_ab_to_grey_true := Good.comp g_lch_ab_to_lab g_lab_to_grey_true (by decide)
theorem g_lch_ab_to_grey_deep : Good .lchAb .greyDeep Val.lch_ab_to_grey_deep := Good.comp g_lch_ab_to_lab g_lab_to_grey_deep (by decide)
theorem g_lch_ab_to_cmyk : Good .lchAb .cmyk Val.lch_ab_to_cmyk := Good.comp g_lch_ab_to_lab g_lab_to_cmyk (by decide)
theorem g_lch_ab_to_hsi : Good .lchAb .hsi Val.lch_ab_to_hsi := Good.comp g_lch_ab_to_lab g_lab_to_hsi (by decide)
theorem g_lch_ab_to_hsv : Good .lchAb .hsv Val.lch_ab_to_hsv := Good.comp g_lch_ab_to_lab g_lab_to_hsv (by decide)
theorem g_lch_ab_to_hsl : Good .lchAb .hsl Val.lch_ab_to_hsl := Good.comp g_lch_ab_to_lab g_lab_to_hsl (by decide)
theorem g_lch_ab_to_hcy : Good .lchAb .hcy Val.lch_ab_to_hcy := Good.comp g_lch_ab_to_lab g_lab_to_hcy (by decide)
theorem g_lch_ab_to_xyz : Good .lchAb .xyz Val.lch_ab_to_xyz := Good.comp g_lch_ab_to_lab g_lab_to_xyz (by decide)
theorem g_lch_ab_to_xyy : Good .lchAb .xyy Val.lch_ab_to_xyy := Good.comp g_lch_ab_to_lab g_lab_to_xyy (by decide)
theorem g_lch_ab_to_cieluv : Good .lchAb .cieluv Val.lch_ab_to_cieluv := Good.comp g_lch_ab_to_lab g_lab_to_cieluv (by decide)
theorem g_lch_ab_to_lch_uv : Good .lchAb .lchUv Val.lch_ab_to_lch_uv := Good.comp g_lch_ab_to_cieluv g_cieluv_to_lch_uv (by decide)
theorem g_lch_uv_to_rgb_true : Good .lchUv .rgbTrue Val.lch_uv_to_rgb_true := Good.comp g_lch_uv_to_cieluv g_cieluv_to_rgb_true (by decide)
theorem g_lch_uv_to_rgb_deep : Good .lchUv .rgbDeep Val.lch_uv_to_rgb_deep := Good.comp g_lch_uv_to_cieluv g_cieluv_to_rgb_deep (by decide)
theorem g_lch_uv_to_grey_true : Good .lchUv .greyTrue Val.lch_uv_to_grey_true := Good.comp g_lch_uv_to_cieluv g_cieluv_to_grey_true (by decide)
theorem g_lch_uv_to_grey_deep : Good .lchUv .greyDeep Val.lch_uv_to_grey_deep := Good.comp g_lch_uv_to_cieluv g_cieluv_to_grey_deep (by decide)
theorem g_lch_uv_to_cmyk : Good .lchUv .cmyk Val.lch_uv_to_cmyk := Good.comp g_lch_uv_to_cieluv g_cieluv_to_cmyk (by decide)
theorem g_lch_uv_to_hsi : Good .lchUv .hsi Val.lch_uv_to_hsi := Good.comp g_lch_uv_to_cieluv g_cieluv_to_hsi (by decide)
theorem g_lch_uv_to_hsv : Good .lchUv .hsv Val.lch_uv_to_hsv := Good.comp g_lch_uv_to_cieluv g_cieluv_to_hsv (by decide)
theorem g_lch_uv_to_hsl : Good .lchUv .hsl Val.lch_uv_to_hsl := Good.comp g_lch_uv_to_cieluv g_cieluv_to_hsl (by decide)
theorem g_lch_uv_to_hcy : Good .lchUv .hcy Val.lch_uv_to_hcy := Good.comp g_lch_uv_to_cieluv g_cieluv_to_hcy (by decide)
theorem g_lch_uv_to_xyz : Good .lchUv .xyz Val.lch_uv_to_xyz := Good.comp g_lch_uv_to_cieluv g_cieluv_to_xyz (by decide)
theorem g_lch_uv_to_xyy : Good .lchUv .xyy Val.lch_uv_to_xyy := Good.comp g_lch_uv_to_cieluv g_cieluv_to_xyy (by decide)
theorem g_lch_uv_to_lab : Good .lchUv .lab Val.lch_uv_to_lab := Good.comp g_lch_uv_to_cieluv g_cieluv_to_lab (by decide)
theorem g_lch_uv_to_lch_ab : Good .lchUv .lchAb Val.lch_uv_to_lch_ab := Good.comp g_lch_uv_to_cieluv g_cieluv_to_lch_ab (by decide)

end Conv
