import Verif.BlendLemmas

/-!
Proof machinery for C103: the value functions of all conversions, cut at a station on their way.
-/

open Outcome Fl ConvSpec

namespace Val
variable [FloatModel]

theorem bind_assoc' {α β γ : Type} (x : Outcome α) (f : α → Outcome β) (g : β → Outcome γ) : (x >>= f >>= g) = (x >>= fun a => f a >>= g) := by
  cases x <;> rfl

theorem cut_rgb_true_rgb_deep_cmyk (w : World) (c : Color) : rgb_true_to_cmyk w c = (rgb_true_to_rgb_deep w c >>= fun d => rgb_deep_to_cmyk w d) := rfl
theorem cut_rgb_true_rgb_deep_hsi (w : World) (c : Color) : rgb_true_to_hsi w c = (rgb_true_to_rgb_deep w c >>= fun d => rgb_deep_to_hsi w d) := rfl
theorem cut_rgb_true_rgb_deep_hsv (w : World) (c : Color) : rgb_true_to_hsv w c = (rgb_true_to_rgb_deep w c >>= fun d => rgb_deep_to_hsv w d) := rfl
theorem cut_rgb_true_rgb_deep_hsl (w : World) (c : Color) : rgb_true_to_hsl w c = (rgb_true_to_rgb_deep w c >>= fun d => rgb_deep_to_hsl w d) := rfl
theorem cut_rgb_true_rgb_deep_hcy (w : World) (c : Color) : rgb_true_to_hcy w c = (rgb_true_to_rgb_deep w c >>= fun d => rgb_deep_to_hcy w d) := rfl
theorem cut_rgb_true_rgb_deep_xyz (w : World) (c : Color) : rgb_true_to_xyz w c = (rgb_true_to_rgb_deep w c >>= fun d => rgb_deep_to_xyz w d) := rfl
theorem cut_rgb_true_rgb_deep_xyy (w : World) (c : Color) : rgb_true_to_xyy w c = (rgb_true_to_rgb_deep w c >>= fun d => rgb_deep_to_xyy w d) := by first | (simp only [rgb_deep_to_xyy, rgb_true_to_xyy, rgb_true_to_xyz, bind_assoc'] <;> rfl) | (simp only [rgb_deep_to_xyy, rgb_true_to_xyy, rgb_true_to_xyz, bind_assoc']; cases rgb_true_to_rgb_deep w c <;> simp only [ok_bind, throw_bind, ub_bind, rgb_deep_to_xyy, rgb_true_to_xyy, rgb_true_to_xyz, bind_assoc'])
theorem cut_rgb_true_rgb_deep_cieluv (w : World) (c : Color) : rgb_true_to_cieluv w c = (rgb_true_to_rgb_deep w c >>= fun d => rgb_deep_to_cieluv w d) := by first | (simp only [rgb_deep_to_cieluv, rgb_true_to_cieluv, rgb_true_to_xyz, bind_assoc'] <;> rfl) | (simp only [rgb_deep_to_cieluv, rgb_true_to_cieluv, rgb_true_to_xyz, bind_assoc']; cases rgb_true_to_rgb_deep w c <;> simp only [ok_bind, throw_bind, ub_bind, rgb_deep_to_cieluv, rgb_true_to_cieluv, rgb_true_to_xyz, bind_assoc'])
theorem cut_rgb_true_rgb_deep_lab (w : World) (c : Color) : rgb_true_to_lab w c = (rgb_true_to_rgb_deep w c >>= fun d => rgb_deep_to_lab w d) := rfl
theorem cut_rgb_true_rgb_deep_lch_ab (w : World) (c : Color) : rgb_true_to_lch_ab w c = (rgb_true_to_rgb_deep w c >>= fun d => rgb_deep_to_lch_ab w d) := by first | (simp only [rgb_deep_to_lab, rgb_deep_to_lch_ab, rgb_true_to_lab, rgb_true_to_lch_ab, bind_assoc'] <;> rfl) | (simp only [rgb_deep_to_lab, rgb_deep_to_lch_ab, rgb_true_to_lab, rgb_true_to_lch_ab, bind_assoc']; cases rgb_true_to_rgb_deep w c <;> simp only [ok_bind, throw_bind, ub_bind, rgb_deep_to_lab, rgb_deep_to_lch_ab, rgb_true_to_lab, rgb_true_to_lch_ab, bind_assoc'])
theorem cut_rgb_true_rgb_deep_lch_uv (w : World) (c : Color) : rgb_true_to_lch_uv w c = (rgb_true_to_rgb_deep w c >>= fun d => rgb_deep_to_lch_uv w d) := by first | (simp only [rgb_deep_to_cieluv, rgb_deep_to_lch_uv, rgb_true_to_cieluv, rgb_true_to_lch_uv, rgb_true_to_xyz, bind_assoc'] <;> rfl) | (simp only [rgb_deep_to_cieluv, rgb_deep_to_lch_uv, rgb_true_to_cieluv, rgb_true_to_lch_uv, rgb_true_to_xyz, bind_assoc']; cases rgb_true_to_rgb_deep w c <;> simp only [ok_bind, throw_bind, ub_bind, rgb_deep_to_cieluv, rgb_deep_to_lch_uv, rgb_true_to_cieluv, rgb_true_to_lch_uv, rgb_true_to_xyz, bind_assoc'])
theorem cut_grey_true_rgb_deep_cmyk (w : World) (c : Color) : grey_true_to_cmyk w c = (grey_true_to_rgb_deep w c >>= fun d => rgb_deep_to_cmyk w d) := rfl
theorem cut_grey_true_rgb_deep_hsi (w : World) (c : Color) : grey_true_to_hsi w c = (grey_true_to_rgb_deep w c >>= fun d => rgb_deep_to_hsi w d) := rfl
theorem cut_grey_true_rgb_deep_hsv (w : World) (c : Color) : grey_true_to_hsv w c = (grey_true_to_rgb_deep w c >>= fun d => rgb_deep_to_hsv w d) := rfl
theorem cut_grey_true_rgb_deep_hsl (w : World) (c : Color) : grey_true_to_hsl w c = (grey_true_to_rgb_deep w c >>= fun d => rgb_deep_to_hsl w d) := rfl
theorem cut_grey_true_rgb_deep_hcy (w : World) (c : Color) : grey_true_to_hcy w c = (grey_true_to_rgb_deep w c >>= fun d => rgb_deep_to_hcy w d) := rfl
theorem cut_grey_true_rgb_deep_xyz (w : World) (c : Color) : grey_true_to_xyz w c = (grey_true_to_rgb_deep w c >>= fun d => rgb_deep_to_xyz w d) := rfl
theorem cut_grey_true_rgb_deep_xyy (w : World) (c : Color) : grey_true_to_xyy w c = (grey_true_to_rgb_deep w c >>= fun d => rgb_deep_to_xyy w d) := by first | (simp only [grey_true_to_xyy, grey_true_to_xyz, rgb_deep_to_xyy, bind_assoc'] <;> rfl) | (simp only [grey_true_to_xyy, grey_true_to_xyz, rgb_deep_to_xyy, bind_assoc']; cases grey_true_to_rgb_deep w c <;> simp only [ok_bind, throw_bind, ub_bind, grey_true_to_xyy, grey_true_to_xyz, rgb_deep_to_xyy, bind_assoc'])
theorem cut_grey_true_rgb_deep_cieluv (w : World) (c : Color) : grey_true_to_cieluv w c = (grey_true_to_rgb_deep w c >>= fun d => rgb_deep_to_cieluv w d) := by first | (simp only [grey_true_to_cieluv, grey_true_to_xyz, rgb_deep_to_cieluv, bind_assoc'] <;> rfl) | (simp only [grey_true_to_cieluv, grey_true_to_xyz, rgb_deep_to_cieluv, bind_assoc']; cases grey_true_to_rgb_deep w c <;> simp only [ok_bind, throw_bind, ub_bind, grey_true_to_cieluv, grey_true_to_xyz, rgb_deep_to_cieluv, bind_assoc'])
theorem cut_grey_true_rgb_deep_lab (w : World) (c : Color) : grey_true_to_lab w c = (grey_true_to_rgb_deep w c >>= fun d => rgb_deep_to_lab w d) := rfl
theorem cut_grey_true_rgb_deep_lch_ab (w : World) (c : Color) : grey_true_to_lch_ab w c = (grey_true_to_rgb_deep w c >>= fun d => rgb_deep_to_lch_ab w d) := by first | (simp only [grey_true_to_lab, grey_true_to_lch_ab, rgb_deep_to_lab, rgb_deep_to_lch_ab, bind_assoc'] <;> rfl) | (simp only [grey_true_to_lab, grey_true_to_lch_ab, rgb_deep_to_lab, rgb_deep_to_lch_ab, bind_assoc']; cases grey_true_to_rgb_deep w c <;> simp only [ok_bind, throw_bind, ub_bind, grey_true_to_lab, grey_true_to_lch_ab, rgb_deep_to_lab, rgb_deep_to_lch_ab, bind_assoc'])
theorem cut_grey_true_rgb_deep_lch_uv (w : World) (c : Color) : grey_true_to_lch_uv w c = (grey_true_to_rgb_deep w c >>= fun d => rgb_deep_to_lch_uv w d) := by first | (simp only [grey_true_to_cieluv, grey_true_to_lch_uv, grey_true_to_xyz, rgb_deep_to_cieluv, rgb_deep_to_lch_uv, bind_assoc'] <;> rfl) | (simp only [grey_true_to_cieluv, grey_true_to_lch_uv, grey_true_to_xyz, rgb_deep_to_cieluv, rgb_deep_to_lch_uv, bind_assoc']; cases grey_true_to_rgb_deep w c <;> simp only [ok_bind, throw_bind, ub_bind, grey_true_to_cieluv, grey_true_to_lch_uv, grey_true_to_xyz, rgb_deep_to_cieluv, rgb_deep_to_lch_uv, bind_assoc'])
theorem cut_grey_deep_rgb_deep_cmyk (w : World) (c : Color) : grey_deep_to_cmyk w c = (grey_deep_to_rgb_deep w c >>= fun d => rgb_deep_to_cmyk w d) := rfl
theorem cut_grey_deep_rgb_deep_hsi (w : World) (c : Color) : grey_deep_to_hsi w c = (grey_deep_to_rgb_deep w c >>= fun d => rgb_deep_to_hsi w d) := rfl
theorem cut_grey_deep_rgb_deep_hsv (w : World) (c : Color) : grey_deep_to_hsv w c = (grey_deep_to_rgb_deep w c >>= fun d => rgb_deep_to_hsv w d) := rfl
theorem cut_grey_deep_rgb_deep_hsl (w : World) (c : Color) : grey_deep_to_hsl w c = (grey_deep_to_rgb_deep w c >>= fun d => rgb_deep_to_hsl w d) := rfl
theorem cut_grey_deep_rgb_deep_hcy (w : World) (c : Color) : grey_deep_to_hcy w c = (grey_deep_to_rgb_deep w c >>= fun d => rgb_deep_to_hcy w d) := rfl
theorem cut_grey_deep_rgb_deep_xyz (w : World) (c : Color) : grey_deep_to_xyz w c = (grey_deep_to_rgb_deep w c >>= fun d => rgb_deep_to_xyz w d) := rfl
theorem cut_grey_deep_rgb_deep_xyy (w : World) (c : Color) : grey_deep_to_xyy w c = (grey_deep_to_rgb_deep w c >>= fun d => rgb_deep_to_xyy w d) := by first | (simp only [grey_deep_to_xyy, grey_deep_to_xyz, rgb_deep_to_xyy, bind_assoc'] <;> rfl) | (simp only [grey_deep_to_xyy, grey_deep_to_xyz, rgb_deep_to_xyy, bind_assoc']; cases grey_deep_to_rgb_deep w c <;> simp only [ok_bind, throw_bind, ub_bind, grey_deep_to_xyy, grey_deep_to_xyz, rgb_deep_to_xyy, bind_assoc'])
theorem cut_grey_deep_rgb_deep_cieluv (w : World) (c : Color) : grey_deep_to_cieluv w c = (grey_deep_to_rgb_deep w c >>= fun d => rgb_deep_to_cieluv w d) := by first | (simp only [grey_deep_to_cieluv, grey_deep_to_xyz, rgb_deep_to_cieluv, bind_assoc'] <;> rfl) | (simp only [grey_deep_to_cieluv, grey_deep_to_xyz, rgb_deep_to_cieluv, bind_assoc']; cases grey_deep_to_rgb_deep w c <;> simp only [ok_bind, throw_bind, ub_bind, grey_deep_to_cieluv, grey_deep_to_xyz, rgb_deep_to_cieluv, bind_assoc'])
theorem cut_grey_deep_rgb_deep_lab (w : World) (c : Color) : grey_deep_to_lab w c = (grey_deep_to_rgb_deep w c >>= fun d => rgb_deep_to_lab w d) := rfl
theorem cut_grey_deep_rgb_deep_lch_ab (w : World) (c : Color) : grey_deep_to_lch_ab w c = (grey_deep_to_rgb_deep w c >>= fun d => rgb_deep_to_lch_ab w d) := by first | (simp only [grey_deep_to_lab, grey_deep_to_lch_ab, rgb_deep_to_lab, rgb_deep_to_lch_ab, bind_assoc'] <;> rfl) | (simp only [grey_deep_to_lab, grey_deep_to_lch_ab, rgb_deep_to_lab, rgb_deep_to_lch_ab, bind_assoc']; cases grey_deep_to_rgb_deep w c <;> simp only [ok_bind, throw_bind, ub_bind, grey_deep_to_lab, grey_deep_to_lch_ab, rgb_deep_to_lab, rgb_deep_to_lch_ab, bind_assoc'])
theorem cut_grey_deep_rgb_deep_lch_uv (w : World) (c : Color) : grey_deep_to_lch_uv w c = (grey_deep_to_rgb_deep w c >>= fun d => rgb_deep_to_lch_uv w d) := by first | (simp only [grey_deep_to_cieluv, grey_deep_to_lch_uv, grey_deep_to_xyz, rgb_deep_to_cieluv, rgb_deep_to_lch_uv, bind_assoc'] <;> rfl) | (simp only [grey_deep_to_cieluv, grey_deep_to_lch_uv, grey_deep_to_xyz, rgb_deep_to_cieluv, rgb_deep_to_lch_uv, bind_assoc']; cases grey_deep_to_rgb_deep w c <;> simp only [ok_bind, throw_bind, ub_bind, grey_deep_to_cieluv, grey_deep_to_lch_uv, grey_deep_to_xyz, rgb_deep_to_cieluv, rgb_deep_to_lch_uv, bind_assoc'])
theorem cut_cmyk_rgb_deep_rgb_true (w : World) (c : Color) : cmyk_to_rgb_true w c = (cmyk_to_rgb_deep w c >>= fun d => rgb_deep_to_rgb_true w d) := rfl
theorem cut_cmyk_rgb_deep_grey_true (w : World) (c : Color) : cmyk_to_grey_true w c = (cmyk_to_rgb_deep w c >>= fun d => rgb_deep_to_grey_true w d) := rfl
theorem cut_cmyk_rgb_deep_grey_deep (w : World) (c : Color) : cmyk_to_grey_deep w c = (cmyk_to_rgb_deep w c >>= fun d => rgb_deep_to_grey_deep w d) := rfl
theorem cut_cmyk_rgb_deep_hsi (w : World) (c : Color) : cmyk_to_hsi w c = (cmyk_to_rgb_deep w c >>= fun d => rgb_deep_to_hsi w d) := rfl
theorem cut_cmyk_rgb_deep_hsv (w : World) (c : Color) : cmyk_to_hsv w c = (cmyk_to_rgb_deep w c >>= fun d => rgb_deep_to_hsv w d) := rfl
theorem cut_cmyk_rgb_deep_hsl (w : World) (c : Color) : cmyk_to_hsl w c = (cmyk_to_rgb_deep w c >>= fun d => rgb_deep_to_hsl w d) := rfl
theorem cut_cmyk_rgb_deep_hcy (w : World) (c : Color) : cmyk_to_hcy w c = (cmyk_to_rgb_deep w c >>= fun d => rgb_deep_to_hcy w d) := rfl
theorem cut_cmyk_rgb_deep_xyz (w : World) (c : Color) : cmyk_to_xyz w c = (cmyk_to_rgb_deep w c >>= fun d => rgb_deep_to_xyz w d) := rfl
theorem cut_cmyk_rgb_deep_xyy (w : World) (c : Color) : cmyk_to_xyy w c = (cmyk_to_rgb_deep w c >>= fun d => rgb_deep_to_xyy w d) := by first | (simp only [cmyk_to_xyy, cmyk_to_xyz, rgb_deep_to_xyy, bind_assoc'] <;> rfl) | (simp only [cmyk_to_xyy, cmyk_to_xyz, rgb_deep_to_xyy, bind_assoc']; cases cmyk_to_rgb_deep w c <;> simp only [ok_bind, throw_bind, ub_bind, cmyk_to_xyy, cmyk_to_xyz, rgb_deep_to_xyy, bind_assoc'])
theorem cut_cmyk_rgb_deep_cieluv (w : World) (c : Color) : cmyk_to_cieluv w c = (cmyk_to_rgb_deep w c >>= fun d => rgb_deep_to_cieluv w d) := by first | (simp only [cmyk_to_cieluv, cmyk_to_xyz, rgb_deep_to_cieluv, bind_assoc'] <;> rfl) | (simp only [cmyk_to_cieluv, cmyk_to_xyz, rgb_deep_to_cieluv, bind_assoc']; cases cmyk_to_rgb_deep w c <;> simp only [ok_bind, throw_bind, ub_bind, cmyk_to_cieluv, cmyk_to_xyz, rgb_deep_to_cieluv, bind_assoc'])
theorem cut_cmyk_rgb_deep_lab (w : World) (c : Color) : cmyk_to_lab w c = (cmyk_to_rgb_deep w c >>= fun d => rgb_deep_to_lab w d) := rfl
theorem cut_cmyk_rgb_deep_lch_ab (w : World) (c : Color) : cmyk_to_lch_ab w c = (cmyk_to_rgb_deep w c >>= fun d => rgb_deep_to_lch_ab w d) := by first | (simp only [cmyk_to_lab, cmyk_to_lch_ab, rgb_deep_to_lab, rgb_deep_to_lch_ab, bind_assoc'] <;> rfl) | (simp only [cmyk_to_lab, cmyk_to_lch_ab, rgb_deep_to_lab, rgb_deep_to_lch_ab, bind_assoc']; cases cmyk_to_rgb_deep w c <;> simp only [ok_bind, throw_bind, ub_bind, cmyk_to_lab, cmyk_to_lch_ab, rgb_deep_to_lab, rgb_deep_to_lch_ab, bind_assoc'])
theorem cut_cmyk_rgb_deep_lch_uv (w : World) (c : Color) : cmyk_to_lch_uv w c = (cmyk_to_rgb_deep w c >>= fun d => rgb_deep_to_lch_uv w d) := by first | (simp only [cmyk_to_cieluv, cmyk_to_lch_uv, cmyk_to_xyz, rgb_deep_to_cieluv, rgb_deep_to_lch_uv, bind_assoc'] <;> rfl) | (simp only [cmyk_to_cieluv, cmyk_to_lch_uv, cmyk_to_xyz, rgb_deep_to_cieluv, rgb_deep_to_lch_uv, bind_assoc']; cases cmyk_to_rgb_deep w c <;> simp only [ok_bind, throw_bind, ub_bind, cmyk_to_cieluv, cmyk_to_lch_uv, cmyk_to_xyz, rgb_deep_to_cieluv, rgb_deep_to_lch_uv, bind_assoc'])
theorem cut_hsi_rgb_deep_rgb_true (w : World) (c : Color) : hsi_to_rgb_true w c = (hsi_to_rgb_deep w c >>= fun d => rgb_deep_to_rgb_true w d) := rfl
theorem cut_hsi_rgb_deep_grey_true (w : World) (c : Color) : hsi_to_grey_true w c = (hsi_to_rgb_deep w c >>= fun d => rgb_deep_to_grey_true w d) := rfl
theorem cut_hsi_rgb_deep_grey_deep (w : World) (c : Color) : hsi_to_grey_deep w c = (hsi_to_rgb_deep w c >>= fun d => rgb_deep_to_grey_deep w d) := rfl
theorem cut_hsi_rgb_deep_cmyk (w : World) (c : Color) : hsi_to_cmyk w c = (hsi_to_rgb_deep w c >>= fun d => rgb_deep_to_cmyk w d) := rfl
theorem cut_hsi_rgb_deep_hsv (w : World) (c : Color) : hsi_to_hsv w c = (hsi_to_rgb_deep w c >>= fun d => rgb_deep_to_hsv w d) := rfl
theorem cut_hsi_rgb_deep_hsl (w : World) (c : Color) : hsi_to_hsl w c = (hsi_to_rgb_deep w c >>= fun d => rgb_deep_to_hsl w d) := rfl
theorem cut_hsi_rgb_deep_hcy (w : World) (c : Color) : hsi_to_hcy w c = (hsi_to_rgb_deep w c >>= fun d => rgb_deep_to_hcy w d) := rfl
theorem cut_hsi_rgb_deep_xyz (w : World) (c : Color) : hsi_to_xyz w c = (hsi_to_rgb_deep w c >>= fun d => rgb_deep_to_xyz w d) := rfl
theorem cut_hsi_rgb_deep_xyy (w : World) (c : Color) : hsi_to_xyy w c = (hsi_to_rgb_deep w c >>= fun d => rgb_deep_to_xyy w d) := rfl
theorem cut_hsi_rgb_deep_cieluv (w : World) (c : Color) : hsi_to_cieluv w c = (hsi_to_rgb_deep w c >>= fun d => rgb_deep_to_cieluv w d) := rfl
theorem cut_hsi_rgb_deep_lab (w : World) (c : Color) : hsi_to_lab w c = (hsi_to_rgb_deep w c >>= fun d => rgb_deep_to_lab w d) := rfl
theorem cut_hsi_rgb_deep_lch_ab (w : World) (c : Color) : hsi_to_lch_ab w c = (hsi_to_rgb_deep w c >>= fun d => rgb_deep_to_lch_ab w d) := rfl
theorem cut_hsi_rgb_deep_lch_uv (w : World) (c : Color) : hsi_to_lch_uv w c = (hsi_to_rgb_deep w c >>= fun d => rgb_deep_to_lch_uv w d) := rfl
theorem cut_hsv_rgb_deep_rgb_true (w : World) (c : Color) : hsv_to_rgb_true w c = (hsv_to_rgb_deep w c >>= fun d => rgb_deep_to_rgb_true w d) := rfl
theorem cut_hsv_rgb_deep_grey_true (w : World) (c : Color) : hsv_to_grey_true w c = (hsv_to_rgb_deep w c >>= fun d => rgb_deep_to_grey_true w d) := rfl
theorem cut_hsv_rgb_deep_grey_deep (w : World) (c : Color) : hsv_to_grey_deep w c = (hsv_to_rgb_deep w c >>= fun d => rgb_deep_to_grey_deep w d) := rfl
theorem cut_hsv_rgb_deep_cmyk (w : World) (c : Color) : hsv_to_cmyk w c = (hsv_to_rgb_deep w c >>= fun d => rgb_deep_to_cmyk w d) := rfl
theorem cut_hsv_rgb_deep_hsi (w : World) (c : Color) : hsv_to_hsi w c = (hsv_to_rgb_deep w c >>= fun d => rgb_deep_to_hsi w d) := rfl
theorem cut_hsv_rgb_deep_hcy (w : World) (c : Color) : hsv_to_hcy w c = (hsv_to_rgb_deep w c >>= fun d => rgb_deep_to_hcy w d) := rfl
theorem cut_hsv_rgb_deep_xyz (w : World) (c : Color) : hsv_to_xyz w c = (hsv_to_rgb_deep w c >>= fun d => rgb_deep_to_xyz w d) := rfl
theorem cut_hsv_rgb_deep_xyy (w : World) (c : Color) : hsv_to_xyy w c = (hsv_to_rgb_deep w c >>= fun d => rgb_deep_to_xyy w d) := by first | (simp only [hsv_to_xyy, hsv_to_xyz, rgb_deep_to_xyy, bind_assoc'] <;> rfl) | (simp only [hsv_to_xyy, hsv_to_xyz, rgb_deep_to_xyy, bind_assoc']; cases hsv_to_rgb_deep w c <;> simp only [ok_bind, throw_bind, ub_bind, hsv_to_xyy, hsv_to_xyz, rgb_deep_to_xyy, bind_assoc'])
theorem cut_hsv_rgb_deep_cieluv (w : World) (c : Color) : hsv_to_cieluv w c = (hsv_to_rgb_deep w c >>= fun d => rgb_deep_to_cieluv w d) := by first | (simp only [hsv_to_cieluv, hsv_to_xyz, rgb_deep_to_cieluv, bind_assoc'] <;> rfl) | (simp only [hsv_to_cieluv, hsv_to_xyz, rgb_deep_to_cieluv, bind_assoc']; cases hsv_to_rgb_deep w c <;> simp only [ok_bind, throw_bind, ub_bind, hsv_to_cieluv, hsv_to_xyz, rgb_deep_to_cieluv, bind_assoc'])
theorem cut_hsv_rgb_deep_lab (w : World) (c : Color) : hsv_to_lab w c = (hsv_to_rgb_deep w c >>= fun d => rgb_deep_to_lab w d) := rfl
theorem cut_hsv_rgb_deep_lch_ab (w : World) (c : Color) : hsv_to_lch_ab w c = (hsv_to_rgb_deep w c >>= fun d => rgb_deep_to_lch_ab w d) := by first | (simp only [hsv_to_lab, hsv_to_lch_ab, rgb_deep_to_lab, rgb_deep_to_lch_ab, bind_assoc'] <;> rfl) | (simp only [hsv_to_lab, hsv_to_lch_ab, rgb_deep_to_lab, rgb_deep_to_lch_ab, bind_assoc']; cases hsv_to_rgb_deep w c <;> simp only [ok_bind, throw_bind, ub_bind, hsv_to_lab, hsv_to_lch_ab, rgb_deep_to_lab, rgb_deep_to_lch_ab, bind_assoc'])
theorem cut_hsv_rgb_deep_lch_uv (w : World) (c : Color) : hsv_to_lch_uv w c = (hsv_to_rgb_deep w c >>= fun d => rgb_deep_to_lch_uv w d) := by first | (simp only [hsv_to_cieluv, hsv_to_lch_uv, hsv_to_xyz, rgb_deep_to_cieluv, rgb_deep_to_lch_uv, bind_assoc'] <;> rfl) | (simp only [hsv_to_cieluv, hsv_to_lch_uv, hsv_to_xyz, rgb_deep_to_cieluv, rgb_deep_to_lch_uv, bind_assoc']; cases hsv_to_rgb_deep w c <;> simp only [ok_bind, throw_bind, ub_bind, hsv_to_cieluv, hsv_to_lch_uv, hsv_to_xyz, rgb_deep_to_cieluv, rgb_deep_to_lch_uv, bind_assoc'])
theorem cut_hsl_rgb_deep_rgb_true (w : World) (c : Color) : hsl_to_rgb_true w c = (hsl_to_rgb_deep w c >>= fun d => rgb_deep_to_rgb_true w d) := rfl
theorem cut_hsl_rgb_deep_grey_true (w : World) (c : Color) : hsl_to_grey_true w c = (hsl_to_rgb_deep w c >>= fun d => rgb_deep_to_grey_true w d) := rfl
theorem cut_hsl_rgb_deep_grey_deep (w : World) (c : Color) : hsl_to_grey_deep w c = (hsl_to_rgb_deep w c >>= fun d => rgb_deep_to_grey_deep w d) := rfl
theorem cut_hsl_rgb_deep_cmyk (w : World) (c : Color) : hsl_to_cmyk w c = (hsl_to_rgb_deep w c >>= fun d => rgb_deep_to_cmyk w d) := rfl
theorem cut_hsl_rgb_deep_hsi (w : World) (c : Color) : hsl_to_hsi w c = (hsl_to_rgb_deep w c >>= fun d => rgb_deep_to_hsi w d) := rfl
theorem cut_hsl_rgb_deep_hcy (w : World) (c : Color) : hsl_to_hcy w c = (hsl_to_rgb_deep w c >>= fun d => rgb_deep_to_hcy w d) := rfl
theorem cut_hsl_rgb_deep_xyz (w : World) (c : Color) : hsl_to_xyz w c = (hsl_to_rgb_deep w c >>= fun d => rgb_deep_to_xyz w d) := rfl
theorem cut_hsl_rgb_deep_xyy (w : World) (c : Color) : hsl_to_xyy w c = (hsl_to_rgb_deep w c >>= fun d => rgb_deep_to_xyy w d) := by first | (simp only [hsl_to_xyy, hsl_to_xyz, rgb_deep_to_xyy, bind_assoc'] <;> rfl) | (simp only [hsl_to_xyy, hsl_to_xyz, rgb_deep_to_xyy, bind_assoc']; cases hsl_to_rgb_deep w c <;> simp only [ok_bind, throw_bind, ub_bind, hsl_to_xyy, hsl_to_xyz, rgb_deep_to_xyy, bind_assoc'])
theorem cut_hsl_rgb_deep_cieluv (w : World) (c : Color) : hsl_to_cieluv w c = (hsl_to_rgb_deep w c >>= fun d => rgb_deep_to_cieluv w d) := by first | (simp only [hsl_to_cieluv, hsl_to_xyz, rgb_deep_to_cieluv, bind_assoc'] <;> rfl) | (simp only [hsl_to_cieluv, hsl_to_xyz, rgb_deep_to_cieluv, bind_assoc']; cases hsl_to_rgb_deep w c <;> simp only [ok_bind, throw_bind, ub_bind, hsl_to_cieluv, hsl_to_xyz, rgb_deep_to_cieluv, bind_assoc'])
theorem cut_hsl_rgb_deep_lab (w : World) (c : Color) : hsl_to_lab w c = (hsl_to_rgb_deep w c >>= fun d => rgb_deep_to_lab w d) := rfl
theorem cut_hsl_rgb_deep_lch_ab (w : World) (c : Color) : hsl_to_lch_ab w c = (hsl_to_rgb_deep w c >>= fun d => rgb_deep_to_lch_ab w d) := by first | (simp only [hsl_to_lab, hsl_to_lch_ab, rgb_deep_to_lab, rgb_deep_to_lch_ab, bind_assoc'] <;> rfl) | (simp only [hsl_to_lab, hsl_to_lch_ab, rgb_deep_to_lab, rgb_deep_to_lch_ab, bind_assoc']; cases hsl_to_rgb_deep w c <;> simp only [ok_bind, throw_bind, ub_bind, hsl_to_lab, hsl_to_lch_ab, rgb_deep_to_lab, rgb_deep_to_lch_ab, bind_assoc'])
theorem cut_hsl_rgb_deep_lch_uv (w : World) (c : Color) : hsl_to_lch_uv w c = (hsl_to_rgb_deep w c >>= fun d => rgb_deep_to_lch_uv w d) := by first | (simp only [hsl_to_cieluv, hsl_to_lch_uv, hsl_to_xyz, rgb_deep_to_cieluv, rgb_deep_to_lch_uv, bind_assoc'] <;> rfl) | (simp only [hsl_to_cieluv, hsl_to_lch_uv, hsl_to_xyz, rgb_deep_to_cieluv, rgb_deep_to_lch_uv, bind_assoc']; cases hsl_to_rgb_deep w c <;> simp only [ok_bind, throw_bind, ub_bind, hsl_to_cieluv, hsl_to_lch_uv, hsl_to_xyz, rgb_deep_to_cieluv, rgb_deep_to_lch_uv, bind_assoc'])
theorem cut_hcy_rgb_deep_rgb_true (w : World) (c : Color) : hcy_to_rgb_true w c = (hcy_to_rgb_deep w c >>= fun d => rgb_deep_to_rgb_true w d) := rfl
theorem cut_hcy_rgb_deep_grey_true (w : World) (c : Color) : hcy_to_grey_true w c = (hcy_to_rgb_deep w c >>= fun d => rgb_deep_to_grey_true w d) := rfl
theorem cut_hcy_rgb_deep_grey_deep (w : World) (c : Color) : hcy_to_grey_deep w c = (hcy_to_rgb_deep w c >>= fun d => rgb_deep_to_grey_deep w d) := rfl
theorem cut_hcy_rgb_deep_cmyk (w : World) (c : Color) : hcy_to_cmyk w c = (hcy_to_rgb_deep w c >>= fun d => rgb_deep_to_cmyk w d) := rfl
theorem cut_hcy_rgb_deep_hsi (w : World) (c : Color) : hcy_to_hsi w c = (hcy_to_rgb_deep w c >>= fun d => rgb_deep_to_hsi w d) := rfl
theorem cut_hcy_rgb_deep_hsv (w : World) (c : Color) : hcy_to_hsv w c = (hcy_to_rgb_deep w c >>= fun d => rgb_deep_to_hsv w d) := rfl
theorem cut_hcy_rgb_deep_hsl (w : World) (c : Color) : hcy_to_hsl w c = (hcy_to_rgb_deep w c >>= fun d => rgb_deep_to_hsl w d) := rfl
theorem cut_hcy_rgb_deep_xyz (w : World) (c : Color) : hcy_to_xyz w c = (hcy_to_rgb_deep w c >>= fun d => rgb_deep_to_xyz w d) := rfl
theorem cut_hcy_rgb_deep_xyy (w : World) (c : Color) : hcy_to_xyy w c = (hcy_to_rgb_deep w c >>= fun d => rgb_deep_to_xyy w d) := rfl
theorem cut_hcy_rgb_deep_cieluv (w : World) (c : Color) : hcy_to_cieluv w c = (hcy_to_rgb_deep w c >>= fun d => rgb_deep_to_cieluv w d) := rfl
theorem cut_hcy_rgb_deep_lab (w : World) (c : Color) : hcy_to_lab w c = (hcy_to_rgb_deep w c >>= fun d => rgb_deep_to_lab w d) := rfl
theorem cut_hcy_rgb_deep_lch_ab (w : World) (c : Color) : hcy_to_lch_ab w c = (hcy_to_rgb_deep w c >>= fun d => rgb_deep_to_lch_ab w d) := rfl
theorem cut_hcy_rgb_deep_lch_uv (w : World) (c : Color) : hcy_to_lch_uv w c = (hcy_to_rgb_deep w c >>= fun d => rgb_deep_to_lch_uv w d) := rfl
theorem cut_xyz_rgb_deep_rgb_true (w : World) (c : Color) : xyz_to_rgb_true w c = (xyz_to_rgb_deep w c >>= fun d => rgb_deep_to_rgb_true w d) := rfl
theorem cut_xyz_rgb_deep_grey_true (w : World) (c : Color) : xyz_to_grey_true w c = (xyz_to_rgb_deep w c >>= fun d => rgb_deep_to_grey_true w d) := rfl
theorem cut_xyz_rgb_deep_grey_deep (w : World) (c : Color) : xyz_to_grey_deep w c = (xyz_to_rgb_deep w c >>= fun d => rgb_deep_to_grey_deep w d) := rfl
theorem cut_xyz_rgb_deep_cmyk (w : World) (c : Color) : xyz_to_cmyk w c = (xyz_to_rgb_deep w c >>= fun d => rgb_deep_to_cmyk w d) := rfl
theorem cut_xyz_rgb_deep_hsi (w : World) (c : Color) : xyz_to_hsi w c = (xyz_to_rgb_deep w c >>= fun d => rgb_deep_to_hsi w d) := rfl
theorem cut_xyz_rgb_deep_hsv (w : World) (c : Color) : xyz_to_hsv w c = (xyz_to_rgb_deep w c >>= fun d => rgb_deep_to_hsv w d) := rfl
theorem cut_xyz_rgb_deep_hsl (w : World) (c : Color) : xyz_to_hsl w c = (xyz_to_rgb_deep w c >>= fun d => rgb_deep_to_hsl w d) := rfl
theorem cut_xyz_rgb_deep_hcy (w : World) (c : Color) : xyz_to_hcy w c = (xyz_to_rgb_deep w c >>= fun d => rgb_deep_to_hcy w d) := rfl
theorem cut_xyy_rgb_deep_rgb_true (w : World) (c : Color) : xyy_to_rgb_true w c = (xyy_to_rgb_deep w c >>= fun d => rgb_deep_to_rgb_true w d) := by first | (simp only [xyy_to_rgb_deep, xyy_to_rgb_true, xyz_to_rgb_true, bind_assoc'] <;> rfl) | (simp only [xyy_to_rgb_deep, xyy_to_rgb_true, xyz_to_rgb_true, bind_assoc']; cases xyy_to_xyz w c <;> simp only [ok_bind, throw_bind, ub_bind, xyy_to_rgb_deep, xyy_to_rgb_true, xyz_to_rgb_true, bind_assoc'])
theorem cut_xyy_rgb_deep_grey_true (w : World) (c : Color) : xyy_to_grey_true w c = (xyy_to_rgb_deep w c >>= fun d => rgb_deep_to_grey_true w d) := by first | (simp only [rgb_deep_to_grey_true, xyy_to_grey_true, xyy_to_rgb_deep, xyz_to_grey_true, bind_assoc'] <;> rfl) | (simp only [rgb_deep_to_grey_true, xyy_to_grey_true, xyy_to_rgb_deep, xyz_to_grey_true, bind_assoc']; cases xyy_to_xyz w c <;> simp only [ok_bind, throw_bind, ub_bind, rgb_deep_to_grey_true, xyy_to_grey_true, xyy_to_rgb_deep, xyz_to_grey_true, bind_assoc'])
theorem cut_xyy_rgb_deep_grey_deep (w : World) (c : Color) : xyy_to_grey_deep w c = (xyy_to_rgb_deep w c >>= fun d => rgb_deep_to_grey_deep w d) := by first | (simp only [xyy_to_grey_deep, xyy_to_rgb_deep, xyz_to_grey_deep, bind_assoc'] <;> rfl) | (simp only [xyy_to_grey_deep, xyy_to_rgb_deep, xyz_to_grey_deep, bind_assoc']; cases xyy_to_xyz w c <;> simp only [ok_bind, throw_bind, ub_bind, xyy_to_grey_deep, xyy_to_rgb_deep, xyz_to_grey_deep, bind_assoc'])
theorem cut_xyy_rgb_deep_cmyk (w : World) (c : Color) : xyy_to_cmyk w c = (xyy_to_rgb_deep w c >>= fun d => rgb_deep_to_cmyk w d) := by first | (simp only [xyy_to_cmyk, xyy_to_rgb_deep, xyz_to_cmyk, bind_assoc'] <;> rfl) | (simp only [xyy_to_cmyk, xyy_to_rgb_deep, xyz_to_cmyk, bind_assoc']; cases xyy_to_xyz w c <;> simp only [ok_bind, throw_bind, ub_bind, xyy_to_cmyk, xyy_to_rgb_deep, xyz_to_cmyk, bind_assoc'])
theorem cut_xyy_rgb_deep_hsi (w : World) (c : Color) : xyy_to_hsi w c = (xyy_to_rgb_deep w c >>= fun d => rgb_deep_to_hsi w d) := by first | (simp only [xyy_to_hsi, xyy_to_rgb_deep, xyz_to_hsi, bind_assoc'] <;> rfl) | (simp only [xyy_to_hsi, xyy_to_rgb_deep, xyz_to_hsi, bind_assoc']; cases xyy_to_xyz w c <;> simp only [ok_bind, throw_bind, ub_bind, xyy_to_hsi, xyy_to_rgb_deep, xyz_to_hsi, bind_assoc'])
theorem cut_xyy_rgb_deep_hsv (w : World) (c : Color) : xyy_to_hsv w c = (xyy_to_rgb_deep w c >>= fun d => rgb_deep_to_hsv w d) := by first | (simp only [xyy_to_hsv, xyy_to_rgb_deep, xyz_to_hsv, bind_assoc'] <;> rfl) | (simp only [xyy_to_hsv, xyy_to_rgb_deep, xyz_to_hsv, bind_assoc']; cases xyy_to_xyz w c <;> simp only [ok_bind, throw_bind, ub_bind, xyy_to_hsv, xyy_to_rgb_deep, xyz_to_hsv, bind_assoc'])
theorem cut_xyy_rgb_deep_hsl (w : World) (c : Color) : xyy_to_hsl w c = (xyy_to_rgb_deep w c >>= fun d => rgb_deep_to_hsl w d) := by first | (simp only [xyy_to_hsl, xyy_to_rgb_deep, xyz_to_hsl, bind_assoc'] <;> rfl) | (simp only [xyy_to_hsl, xyy_to_rgb_deep, xyz_to_hsl, bind_assoc']; cases xyy_to_xyz w c <;> simp only [ok_bind, throw_bind, ub_bind, xyy_to_hsl, xyy_to_rgb_deep, xyz_to_hsl, bind_assoc'])
theorem cut_xyy_rgb_deep_hcy (w : World) (c : Color) : xyy_to_hcy w c = (xyy_to_rgb_deep w c >>= fun d => rgb_deep_to_hcy w d) := by first | (simp only [xyy_to_hcy, xyy_to_rgb_deep, xyz_to_hcy, bind_assoc'] <;> rfl) | (simp only [xyy_to_hcy, xyy_to_rgb_deep, xyz_to_hcy, bind_assoc']; cases xyy_to_xyz w c <;> simp only [ok_bind, throw_bind, ub_bind, xyy_to_hcy, xyy_to_rgb_deep, xyz_to_hcy, bind_assoc'])
theorem cut_cieluv_rgb_deep_rgb_true (w : World) (c : Color) : cieluv_to_rgb_true w c = (cieluv_to_rgb_deep w c >>= fun d => rgb_deep_to_rgb_true w d) := by first | (simp only [cieluv_to_rgb_deep, cieluv_to_rgb_true, xyz_to_rgb_true, bind_assoc'] <;> rfl) | (simp only [cieluv_to_rgb_deep, cieluv_to_rgb_true, xyz_to_rgb_true, bind_assoc']; cases cieluv_to_xyz w c <;> simp only [ok_bind, throw_bind, ub_bind, cieluv_to_rgb_deep, cieluv_to_rgb_true, xyz_to_rgb_true, bind_assoc'])
theorem cut_cieluv_rgb_deep_grey_true (w : World) (c : Color) : cieluv_to_grey_true w c = (cieluv_to_rgb_deep w c >>= fun d => rgb_deep_to_grey_true w d) := by first | (simp only [cieluv_to_grey_true, cieluv_to_rgb_deep, rgb_deep_to_grey_true, xyz_to_grey_true, bind_assoc'] <;> rfl) | (simp only [cieluv_to_grey_true, cieluv_to_rgb_deep, rgb_deep_to_grey_true, xyz_to_grey_true, bind_assoc']; cases cieluv_to_xyz w c <;> simp only [ok_bind, throw_bind, ub_bind, cieluv_to_grey_true, cieluv_to_rgb_deep, rgb_deep_to_grey_true, xyz_to_grey_true, bind_assoc'])
theorem cut_cieluv_rgb_deep_grey_deep (w : World) (c : Color) : cieluv_to_grey_deep w c = (cieluv_to_rgb_deep w c >>= fun d => rgb_deep_to_grey_deep w d) := by first | (simp only [cieluv_to_grey_deep, cieluv_to_rgb_deep, xyz_to_grey_deep, bind_assoc'] <;> rfl) | (simp only [cieluv_to_grey_deep, cieluv_to_rgb_deep, xyz_to_grey_deep, bind_assoc']; cases cieluv_to_xyz w c <;> simp only [ok_bind, throw_bind, ub_bind, cieluv_to_grey_deep, cieluv_to_rgb_deep, xyz_to_grey_deep, bind_assoc'])
theorem cut_cieluv_rgb_deep_cmyk (w : World) (c : Color) : cieluv_to_cmyk w c = (cieluv_to_rgb_deep w c >>= fun d => rgb_deep_to_cmyk w d) := by first | (simp only [cieluv_to_cmyk, cieluv_to_rgb_deep, xyz_to_cmyk, bind_assoc'] <;> rfl) | (simp only [cieluv_to_cmyk, cieluv_to_rgb_deep, xyz_to_cmyk, bind_assoc']; cases cieluv_to_xyz w c <;> simp only [ok_bind, throw_bind, ub_bind, cieluv_to_cmyk, cieluv_to_rgb_deep, xyz_to_cmyk, bind_assoc'])
theorem cut_cieluv_rgb_deep_hsi (w : World) (c : Color) : cieluv_to_hsi w c = (cieluv_to_rgb_deep w c >>= fun d => rgb_deep_to_hsi w d) := by first | (simp only [cieluv_to_hsi, cieluv_to_rgb_deep, xyz_to_hsi, bind_assoc'] <;> rfl) | (simp only [cieluv_to_hsi, cieluv_to_rgb_deep, xyz_to_hsi, bind_assoc']; cases cieluv_to_xyz w c <;> simp only [ok_bind, throw_bind, ub_bind, cieluv_to_hsi, cieluv_to_rgb_deep, xyz_to_hsi, bind_assoc'])
theorem cut_cieluv_rgb_deep_hsv (w : World) (c : Color) : cieluv_to_hsv w c = (cieluv_to_rgb_deep w c >>= fun d => rgb_deep_to_hsv w d) := by first | (simp only [cieluv_to_hsv, cieluv_to_rgb_deep, xyz_to_hsv, bind_assoc'] <;> rfl) | (simp only [cieluv_to_hsv, cieluv_to_rgb_deep, xyz_to_hsv, bind_assoc']; cases cieluv_to_xyz w c <;> simp only [ok_bind, throw_bind, ub_bind, cieluv_to_hsv, cieluv_to_rgb_deep, xyz_to_hsv, bind_assoc'])
theorem cut_cieluv_rgb_deep_hsl (w : World) (c : Color) : cieluv_to_hsl w c = (cieluv_to_rgb_deep w c >>= fun d => rgb_deep_to_hsl w d) := by first | (simp only [cieluv_to_hsl, cieluv_to_rgb_deep, xyz_to_hsl, bind_assoc'] <;> rfl) | (simp only [cieluv_to_hsl, cieluv_to_rgb_deep, xyz_to_hsl, bind_assoc']; cases cieluv_to_xyz w c <;> simp only [ok_bind, throw_bind, ub_bind, cieluv_to_hsl, cieluv_to_rgb_deep, xyz_to_hsl, bind_assoc'])
theorem cut_cieluv_rgb_deep_hcy (w : World) (c : Color) : cieluv_to_hcy w c = (cieluv_to_rgb_deep w c >>= fun d => rgb_deep_to_hcy w d) := by first | (simp only [cieluv_to_hcy, cieluv_to_rgb_deep, xyz_to_hcy, bind_assoc'] <;> rfl) | (simp only [cieluv_to_hcy, cieluv_to_rgb_deep, xyz_to_hcy, bind_assoc']; cases cieluv_to_xyz w c <;> simp only [ok_bind, throw_bind, ub_bind, cieluv_to_hcy, cieluv_to_rgb_deep, xyz_to_hcy, bind_assoc'])
theorem cut_lab_rgb_deep_rgb_true (w : World) (c : Color) : lab_to_rgb_true w c = (lab_to_rgb_deep w c >>= fun d => rgb_deep_to_rgb_true w d) := by first | (simp only [lab_to_rgb_deep, lab_to_rgb_true, xyz_to_rgb_true, bind_assoc'] <;> rfl) | (simp only [lab_to_rgb_deep, lab_to_rgb_true, xyz_to_rgb_true, bind_assoc']; cases lab_to_xyz w c <;> simp only [ok_bind, throw_bind, ub_bind, lab_to_rgb_deep, lab_to_rgb_true, xyz_to_rgb_true, bind_assoc'])
theorem cut_lab_rgb_deep_grey_true (w : World) (c : Color) : lab_to_grey_true w c = (lab_to_rgb_deep w c >>= fun d => rgb_deep_to_grey_true w d) := by first | (simp only [lab_to_grey_true, lab_to_rgb_deep, rgb_deep_to_grey_true, xyz_to_grey_true, bind_assoc'] <;> rfl) | (simp only [lab_to_grey_true, lab_to_rgb_deep, rgb_deep_to_grey_true, xyz_to_grey_true, bind_assoc']; cases lab_to_xyz w c <;> simp only [ok_bind, throw_bind, ub_bind, lab_to_grey_true, lab_to_rgb_deep, rgb_deep_to_grey_true, xyz_to_grey_true, bind_assoc'])
theorem cut_lab_rgb_deep_grey_deep (w : World) (c : Color) : lab_to_grey_deep w c = (lab_to_rgb_deep w c >>= fun d => rgb_deep_to_grey_deep w d) := by first | (simp only [lab_to_grey_deep, lab_to_rgb_deep, xyz_to_grey_deep, bind_assoc'] <;> rfl) | (simp only [lab_to_grey_deep, lab_to_rgb_deep, xyz_to_grey_deep, bind_assoc']; cases lab_to_xyz w c <;> simp only [ok_bind, throw_bind, ub_bind, lab_to_grey_deep, lab_to_rgb_deep, xyz_to_grey_deep, bind_assoc'])
theorem cut_lab_rgb_deep_cmyk (w : World) (c : Color) : lab_to_cmyk w c = (lab_to_rgb_deep w c >>= fun d => rgb_deep_to_cmyk w d) := by first | (simp only [lab_to_cmyk, lab_to_rgb_deep, xyz_to_cmyk, bind_assoc'] <;> rfl) | (simp only [lab_to_cmyk, lab_to_rgb_deep, xyz_to_cmyk, bind_assoc']; cases lab_to_xyz w c <;> simp only [ok_bind, throw_bind, ub_bind, lab_to_cmyk, lab_to_rgb_deep, xyz_to_cmyk, bind_assoc'])
theorem cut_lab_rgb_deep_hsi (w : World) (c : Color) : lab_to_hsi w c = (lab_to_rgb_deep w c >>= fun d => rgb_deep_to_hsi w d) := by first | (simp only [lab_to_hsi, lab_to_rgb_deep, xyz_to_hsi, bind_assoc'] <;> rfl) | (simp only [lab_to_hsi, lab_to_rgb_deep, xyz_to_hsi, bind_assoc']; cases lab_to_xyz w c <;> simp only [ok_bind, throw_bind, ub_bind, lab_to_hsi, lab_to_rgb_deep, xyz_to_hsi, bind_assoc'])
theorem cut_lab_rgb_deep_hsv (w : World) (c : Color) : lab_to_hsv w c = (lab_to_rgb_deep w c >>= fun d => rgb_deep_to_hsv w d) := by first | (simp only [lab_to_hsv, lab_to_rgb_deep, xyz_to_hsv, bind_assoc'] <;> rfl) | (simp only [lab_to_hsv, lab_to_rgb_deep, xyz_to_hsv, bind_assoc']; cases lab_to_xyz w c <;> simp only [ok_bind, throw_bind, ub_bind, lab_to_hsv, lab_to_rgb_deep, xyz_to_hsv, bind_assoc'])
theorem cut_lab_rgb_deep_hsl (w : World) (c : Color) : lab_to_hsl w c = (lab_to_rgb_deep w c >>= fun d => rgb_deep_to_hsl w d) := by first | (simp only [lab_to_hsl, lab_to_rgb_deep, xyz_to_hsl, bind_assoc'] <;> rfl) | (simp only [lab_to_hsl, lab_to_rgb_deep, xyz_to_hsl, bind_assoc']; cases lab_to_xyz w c <;> simp only [ok_bind, throw_bind, ub_bind, lab_to_hsl, lab_to_rgb_deep, xyz_to_hsl, bind_assoc'])
theorem cut_lab_rgb_deep_hcy (w : World) (c : Color) : lab_to_hcy w c = (lab_to_rgb_deep w c >>= fun d => rgb_deep_to_hcy w d) := by first | (simp only [lab_to_hcy, lab_to_rgb_deep, xyz_to_hcy, bind_assoc'] <;> rfl) | (simp only [lab_to_hcy, lab_to_rgb_deep, xyz_to_hcy, bind_assoc']; cases lab_to_xyz w c <;> simp only [ok_bind, throw_bind, ub_bind, lab_to_hcy, lab_to_rgb_deep, xyz_to_hcy, bind_assoc'])
theorem cut_lch_ab_rgb_deep_rgb_true (w : World) (c : Color) : lch_ab_to_rgb_true w c = (lch_ab_to_rgb_deep w c >>= fun d => rgb_deep_to_rgb_true w d) := by first | (simp only [lab_to_rgb_deep, lab_to_rgb_true, lch_ab_to_rgb_deep, lch_ab_to_rgb_true, xyz_to_rgb_true, bind_assoc'] <;> rfl) | (simp only [lab_to_rgb_deep, lab_to_rgb_true, lch_ab_to_rgb_deep, lch_ab_to_rgb_true, xyz_to_rgb_true, bind_assoc']; cases lch_ab_to_lab w c <;> simp only [ok_bind, throw_bind, ub_bind, lab_to_rgb_deep, lab_to_rgb_true, lch_ab_to_rgb_deep, lch_ab_to_rgb_true, xyz_to_rgb_true, bind_assoc'])
theorem cut_lch_ab_rgb_deep_grey_true (w : World) (c : Color) : lch_ab_to_grey_true w c = (lch_ab_to_rgb_deep w c >>= fun d => rgb_deep_to_grey_true w d) := by first | (simp only [lab_to_grey_true, lab_to_rgb_deep, lch_ab_to_grey_true, lch_ab_to_rgb_deep, rgb_deep_to_grey_true, xyz_to_grey_true, bind_assoc'] <;> rfl) | (simp only [lab_to_grey_true, lab_to_rgb_deep, lch_ab_to_grey_true, lch_ab_to_rgb_deep, rgb_deep_to_grey_true, xyz_to_grey_true, bind_assoc']; cases lch_ab_to_lab w c <;> simp only [ok_bind, throw_bind, ub_bind, lab_to_grey_true, lab_to_rgb_deep, lch_ab_to_grey_true, lch_ab_to_rgb_deep, rgb_deep_to_grey_true, xyz_to_grey_true, bind_assoc'])
theorem cut_lch_ab_rgb_deep_grey_deep (w : World) (c : Color) : lch_ab_to_grey_deep w c = (lch_ab_to_rgb_deep w c >>= fun d => rgb_deep_to_grey_deep w d) := by first | (simp only [lab_to_grey_deep, lab_to_rgb_deep, lch_ab_to_grey_deep, lch_ab_to_rgb_deep, xyz_to_grey_deep, bind_assoc'] <;> rfl) | (simp only [lab_to_grey_deep, lab_to_rgb_deep, lch_ab_to_grey_deep, lch_ab_to_rgb_deep, xyz_to_grey_deep, bind_assoc']; cases lch_ab_to_lab w c <;> simp only [ok_bind, throw_bind, ub_bind, lab_to_grey_deep, lab_to_rgb_deep, lch_ab_to_grey_deep, lch_ab_to_rgb_deep, xyz_to_grey_deep, bind_assoc'])
theorem cut_lch_ab_rgb_deep_cmyk (w : World) (c : Color) : lch_ab_to_cmyk w c = (lch_ab_to_rgb_deep w c >>= fun d => rgb_deep_to_cmyk w d) := by first | (simp only [lab_to_cmyk, lab_to_rgb_deep, lch_ab_to_cmyk, lch_ab_to_rgb_deep, xyz_to_cmyk, bind_assoc'] <;> rfl) | (simp only [lab_to_cmyk, lab_to_rgb_deep, lch_ab_to_cmyk, lch_ab_to_rgb_deep, xyz_to_cmyk, bind_assoc']; cases lch_ab_to_lab w c <;> simp only [ok_bind, throw_bind, ub_bind, lab_to_cmyk, lab_to_rgb_deep, lch_ab_to_cmyk, lch_ab_to_rgb_deep, xyz_to_cmyk, bind_assoc'])
theorem cut_lch_ab_rgb_deep_hsi (w : World) (c : Color) : lch_ab_to_hsi w c = (lch_ab_to_rgb_deep w c >>= fun d => rgb_deep_to_hsi w d) := by first | (simp only [lab_to_hsi, lab_to_rgb_deep, lch_ab_to_hsi, lch_ab_to_rgb_deep, xyz_to_hsi, bind_assoc'] <;> rfl) | (simp only [lab_to_hsi, lab_to_rgb_deep, lch_ab_to_hsi, lch_ab_to_rgb_deep, xyz_to_hsi, bind_assoc']; cases lch_ab_to_lab w c <;> simp only [ok_bind, throw_bind, ub_bind, lab_to_hsi, lab_to_rgb_deep, lch_ab_to_hsi, lch_ab_to_rgb_deep, xyz_to_hsi, bind_assoc'])
theorem cut_lch_ab_rgb_deep_hsv (w : World) (c : Color) : lch_ab_to_hsv w c = (lch_ab_to_rgb_deep w c >>= fun d => rgb_deep_to_hsv w d) := by first | (simp only [lab_to_hsv, lab_to_rgb_deep, lch_ab_to_hsv, lch_ab_to_rgb_deep, xyz_to_hsv, bind_assoc'] <;> rfl) | (simp only [lab_to_hsv, lab_to_rgb_deep, lch_ab_to_hsv, lch_ab_to_rgb_deep, xyz_to_hsv, bind_assoc']; cases lch_ab_to_lab w c <;> simp only [ok_bind, throw_bind, ub_bind, lab_to_hsv, lab_to_rgb_deep, lch_ab_to_hsv, lch_ab_to_rgb_deep, xyz_to_hsv, bind_assoc'])
theorem cut_lch_ab_rgb_deep_hsl (w : World) (c : Color) : lch_ab_to_hsl w c = (lch_ab_to_rgb_deep w c >>= fun d => rgb_deep_to_hsl w d) := by first | (simp only [lab_to_hsl, lab_to_rgb_deep, lch_ab_to_hsl, lch_ab_to_rgb_deep, xyz_to_hsl, bind_assoc'] <;> rfl) | (simp only [lab_to_hsl, lab_to_rgb_deep, lch_ab_to_hsl, lch_ab_to_rgb_deep, xyz_to_hsl, bind_assoc']; cases lch_ab_to_lab w c <;> simp only [ok_bind, throw_bind, ub_bind, lab_to_hsl, lab_to_rgb_deep, lch_ab_to_hsl, lch_ab_to_rgb_deep, xyz_to_hsl, bind_assoc'])
theorem cut_lch_ab_rgb_deep_hcy (w : World) (c : Color) : lch_ab_to_hcy w c = (lch_ab_to_rgb_deep w c >>= fun d => rgb_deep_to_hcy w d) := by first | (simp only [lab_to_hcy, lab_to_rgb_deep, lch_ab_to_hcy, lch_ab_to_rgb_deep, xyz_to_hcy, bind_assoc'] <;> rfl) | (simp only [lab_to_hcy, lab_to_rgb_deep, lch_ab_to_hcy, lch_ab_to_rgb_deep, xyz_to_hcy, bind_assoc']; cases lch_ab_to_lab w c <;> simp only [ok_bind, throw_bind, ub_bind, lab_to_hcy, lab_to_rgb_deep, lch_ab_to_hcy, lch_ab_to_rgb_deep, xyz_to_hcy, bind_assoc'])
theorem cut_lch_uv_rgb_deep_rgb_true (w : World) (c : Color) : lch_uv_to_rgb_true w c = (lch_uv_to_rgb_deep w c >>= fun d => rgb_deep_to_rgb_true w d) := by first | (simp only [cieluv_to_rgb_deep, cieluv_to_rgb_true, lch_uv_to_rgb_deep, lch_uv_to_rgb_true, xyz_to_rgb_true, bind_assoc'] <;> rfl) | (simp only [cieluv_to_rgb_deep, cieluv_to_rgb_true, lch_uv_to_rgb_deep, lch_uv_to_rgb_true, xyz_to_rgb_true, bind_assoc']; cases lch_uv_to_cieluv w c <;> simp only [ok_bind, throw_bind, ub_bind, cieluv_to_rgb_deep, cieluv_to_rgb_true, lch_uv_to_rgb_deep, lch_uv_to_rgb_true, xyz_to_rgb_true, bind_assoc'])
theorem cut_lch_uv_rgb_deep_grey_true (w : World) (c : Color) : lch_uv_to_grey_true w c = (lch_uv_to_rgb_deep w c >>= fun d => rgb_deep_to_grey_true w d) := by first | (simp only [cieluv_to_grey_true, cieluv_to_rgb_deep, lch_uv_to_grey_true, lch_uv_to_rgb_deep, rgb_deep_to_grey_true, xyz_to_grey_true, bind_assoc'] <;> rfl) | (simp only [cieluv_to_grey_true, cieluv_to_rgb_deep, lch_uv_to_grey_true, lch_uv_to_rgb_deep, rgb_deep_to_grey_true, xyz_to_grey_true, bind_assoc']; cases lch_uv_to_cieluv w c <;> simp only [ok_bind, throw_bind, ub_bind, cieluv_to_grey_true, cieluv_to_rgb_deep, lch_uv_to_grey_true, lch_uv_to_rgb_deep, rgb_deep_to_grey_true, xyz_to_grey_true, bind_assoc'])
theorem cut_lch_uv_rgb_deep_grey_deep (w : World) (c : Color) : lch_uv_to_grey_deep w c = (lch_uv_to_rgb_deep w c >>= fun d => rgb_deep_to_grey_deep w d) := by first | (simp only [cieluv_to_grey_deep, cieluv_to_rgb_deep, lch_uv_to_grey_deep, lch_uv_to_rgb_deep, xyz_to_grey_deep, bind_assoc'] <;> rfl) | (simp only [cieluv_to_grey_deep, cieluv_to_rgb_deep, lch_uv_to_grey_deep, lch_uv_to_rgb_deep, xyz_to_grey_deep, bind_assoc']; cases lch_uv_to_cieluv w c <;> simp only [ok_bind, throw_bind, ub_bind, cieluv_to_grey_deep, cieluv_to_rgb_deep, lch_uv_to_grey_deep, lch_uv_to_rgb_deep, xyz_to_grey_deep, bind_assoc'])
theorem cut_lch_uv_rgb_deep_cmyk (w : World) (c : Color) : lch_uv_to_cmyk w c = (lch_uv_to_rgb_deep w c >>= fun d => rgb_deep_to_cmyk w d) := by first | (simp only [cieluv_to_cmyk, cieluv_to_rgb_deep, lch_uv_to_cmyk, lch_uv_to_rgb_deep, xyz_to_cmyk, bind_assoc'] <;> rfl) | (simp only [cieluv_to_cmyk, cieluv_to_rgb_deep, lch_uv_to_cmyk, lch_uv_to_rgb_deep, xyz_to_cmyk, bind_assoc']; cases lch_uv_to_cieluv w c <;> simp only [ok_bind, throw_bind, ub_bind, cieluv_to_cmyk, cieluv_to_rgb_deep, lch_uv_to_cmyk, lch_uv_to_rgb_deep, xyz_to_cmyk, bind_assoc'])
theorem cut_lch_uv_rgb_deep_hsi (w : World) (c : Color) : lch_uv_to_hsi w c = (lch_uv_to_rgb_deep w c >>= fun d => rgb_deep_to_hsi w d) := by first | (simp only [cieluv_to_hsi, cieluv_to_rgb_deep, lch_uv_to_hsi, lch_uv_to_rgb_deep, xyz_to_hsi, bind_assoc'] <;> rfl) | (simp only [cieluv_to_hsi, cieluv_to_rgb_deep, lch_uv_to_hsi, lch_uv_to_rgb_deep, xyz_to_hsi, bind_assoc']; cases lch_uv_to_cieluv w c <;> simp only [ok_bind, throw_bind, ub_bind, cieluv_to_hsi, cieluv_to_rgb_deep, lch_uv_to_hsi, lch_uv_to_rgb_deep, xyz_to_hsi, bind_assoc'])
theorem cut_lch_uv_rgb_deep_hsv (w : World) (c : Color) : lch_uv_to_hsv w c = (lch_uv_to_rgb_deep w c >>= fun d => rgb_deep_to_hsv w d) := by first | (simp only [cieluv_to_hsv, cieluv_to_rgb_deep, lch_uv_to_hsv, lch_uv_to_rgb_deep, xyz_to_hsv, bind_assoc'] <;> rfl) | (simp only [cieluv_to_hsv, cieluv_to_rgb_deep, lch_uv_to_hsv, lch_uv_to_rgb_deep, xyz_to_hsv, bind_assoc']; cases lch_uv_to_cieluv w c <;> simp only [ok_bind, throw_bind, ub_bind, cieluv_to_hsv, cieluv_to_rgb_deep, lch_uv_to_hsv, lch_uv_to_rgb_deep, xyz_to_hsv, bind_assoc'])
theorem cut_lch_uv_rgb_deep_hsl (w : World) (c : Color) : lch_uv_to_hsl w c = (lch_uv_to_rgb_deep w c >>= fun d => rgb_deep_to_hsl w d) := by first | (simp only [cieluv_to_hsl, cieluv_to_rgb_deep, lch_uv_to_hsl, lch_uv_to_rgb_deep, xyz_to_hsl, bind_assoc'] <;> rfl) | (simp only [cieluv_to_hsl, cieluv_to_rgb_deep, lch_uv_to_hsl, lch_uv_to_rgb_deep, xyz_to_hsl, bind_assoc']; cases lch_uv_to_cieluv w c <;> simp only [ok_bind, throw_bind, ub_bind, cieluv_to_hsl, cieluv_to_rgb_deep, lch_uv_to_hsl, lch_uv_to_rgb_deep, xyz_to_hsl, bind_assoc'])
theorem cut_lch_uv_rgb_deep_hcy (w : World) (c : Color) : lch_uv_to_hcy w c = (lch_uv_to_rgb_deep w c >>= fun d => rgb_deep_to_hcy w d) := by first | (simp only [cieluv_to_hcy, cieluv_to_rgb_deep, lch_uv_to_hcy, lch_uv_to_rgb_deep, xyz_to_hcy, bind_assoc'] <;> rfl) | (simp only [cieluv_to_hcy, cieluv_to_rgb_deep, lch_uv_to_hcy, lch_uv_to_rgb_deep, xyz_to_hcy, bind_assoc']; cases lch_uv_to_cieluv w c <;> simp only [ok_bind, throw_bind, ub_bind, cieluv_to_hcy, cieluv_to_rgb_deep, lch_uv_to_hcy, lch_uv_to_rgb_deep, xyz_to_hcy, bind_assoc'])

theorem cut_rgb_true_xyz_xyy (w : World) (c : Color) : rgb_true_to_xyy w c = (rgb_true_to_xyz w c >>= fun d => xyz_to_xyy w d) := rfl
theorem cut_rgb_true_xyz_cieluv (w : World) (c : Color) : rgb_true_to_cieluv w c = (rgb_true_to_xyz w c >>= fun d => xyz_to_cieluv w d) := rfl
theorem cut_rgb_true_xyz_lab (w : World) (c : Color) : rgb_true_to_lab w c = (rgb_true_to_xyz w c >>= fun d => xyz_to_lab w d) := by first | (simp only [rgb_deep_to_lab, rgb_true_to_lab, rgb_true_to_xyz, bind_assoc'] <;> rfl) | (simp only [rgb_deep_to_lab, rgb_true_to_lab, rgb_true_to_xyz, bind_assoc']; cases rgb_true_to_rgb_deep w c <;> simp only [ok_bind, throw_bind, ub_bind, rgb_deep_to_lab, rgb_true_to_lab, rgb_true_to_xyz, bind_assoc'])
theorem cut_rgb_true_xyz_lch_ab (w : World) (c : Color) : rgb_true_to_lch_ab w c = (rgb_true_to_xyz w c >>= fun d => xyz_to_lch_ab w d) := by first | (simp only [rgb_deep_to_lab, rgb_true_to_lab, rgb_true_to_lch_ab, rgb_true_to_xyz, xyz_to_lch_ab, bind_assoc'] <;> rfl) | (simp only [rgb_deep_to_lab, rgb_true_to_lab, rgb_true_to_lch_ab, rgb_true_to_xyz, xyz_to_lch_ab, bind_assoc']; cases rgb_true_to_rgb_deep w c <;> simp only [ok_bind, throw_bind, ub_bind, rgb_deep_to_lab, rgb_true_to_lab, rgb_true_to_lch_ab, rgb_true_to_xyz, xyz_to_lch_ab, bind_assoc'])
theorem cut_rgb_true_xyz_lch_uv (w : World) (c : Color) : rgb_true_to_lch_uv w c = (rgb_true_to_xyz w c >>= fun d => xyz_to_lch_uv w d) := by first | (simp only [rgb_true_to_cieluv, rgb_true_to_lch_uv, rgb_true_to_xyz, xyz_to_lch_uv, bind_assoc'] <;> rfl) | (simp only [rgb_true_to_cieluv, rgb_true_to_lch_uv, rgb_true_to_xyz, xyz_to_lch_uv, bind_assoc']; cases rgb_true_to_rgb_deep w c <;> simp only [ok_bind, throw_bind, ub_bind, rgb_true_to_cieluv, rgb_true_to_lch_uv, rgb_true_to_xyz, xyz_to_lch_uv, bind_assoc'])
theorem cut_rgb_deep_xyz_xyy (w : World) (c : Color) : rgb_deep_to_xyy w c = (rgb_deep_to_xyz w c >>= fun d => xyz_to_xyy w d) := rfl
theorem cut_rgb_deep_xyz_cieluv (w : World) (c : Color) : rgb_deep_to_cieluv w c = (rgb_deep_to_xyz w c >>= fun d => xyz_to_cieluv w d) := rfl
theorem cut_rgb_deep_xyz_lab (w : World) (c : Color) : rgb_deep_to_lab w c = (rgb_deep_to_xyz w c >>= fun d => xyz_to_lab w d) := rfl
theorem cut_rgb_deep_xyz_lch_ab (w : World) (c : Color) : rgb_deep_to_lch_ab w c = (rgb_deep_to_xyz w c >>= fun d => xyz_to_lch_ab w d) := by first | (simp only [rgb_deep_to_lab, rgb_deep_to_lch_ab, xyz_to_lch_ab, bind_assoc'] <;> rfl) | (simp only [rgb_deep_to_lab, rgb_deep_to_lch_ab, xyz_to_lch_ab, bind_assoc']; cases rgb_deep_to_xyz w c <;> simp only [ok_bind, throw_bind, ub_bind, rgb_deep_to_lab, rgb_deep_to_lch_ab, xyz_to_lch_ab, bind_assoc'])
theorem cut_rgb_deep_xyz_lch_uv (w : World) (c : Color) : rgb_deep_to_lch_uv w c = (rgb_deep_to_xyz w c >>= fun d => xyz_to_lch_uv w d) := by first | (simp only [rgb_deep_to_cieluv, rgb_deep_to_lch_uv, xyz_to_lch_uv, bind_assoc'] <;> rfl) | (simp only [rgb_deep_to_cieluv, rgb_deep_to_lch_uv, xyz_to_lch_uv, bind_assoc']; cases rgb_deep_to_xyz w c <;> simp only [ok_bind, throw_bind, ub_bind, rgb_deep_to_cieluv, rgb_deep_to_lch_uv, xyz_to_lch_uv, bind_assoc'])
theorem cut_grey_true_xyz_xyy (w : World) (c : Color) : grey_true_to_xyy w c = (grey_true_to_xyz w c >>= fun d => xyz_to_xyy w d) := rfl
theorem cut_grey_true_xyz_cieluv (w : World) (c : Color) : grey_true_to_cieluv w c = (grey_true_to_xyz w c >>= fun d => xyz_to_cieluv w d) := rfl
theorem cut_grey_true_xyz_lab (w : World) (c : Color) : grey_true_to_lab w c = (grey_true_to_xyz w c >>= fun d => xyz_to_lab w d) := by first | (simp only [grey_true_to_lab, grey_true_to_xyz, rgb_deep_to_lab, bind_assoc'] <;> rfl) | (simp only [grey_true_to_lab, grey_true_to_xyz, rgb_deep_to_lab, bind_assoc']; cases grey_true_to_rgb_deep w c <;> simp only [ok_bind, throw_bind, ub_bind, grey_true_to_lab, grey_true_to_xyz, rgb_deep_to_lab, bind_assoc'])
theorem cut_grey_true_xyz_lch_ab (w : World) (c : Color) : grey_true_to_lch_ab w c = (grey_true_to_xyz w c >>= fun d => xyz_to_lch_ab w d) := by first | (simp only [grey_true_to_lab, grey_true_to_lch_ab, grey_true_to_xyz, rgb_deep_to_lab, xyz_to_lch_ab, bind_assoc'] <;> rfl) | (simp only [grey_true_to_lab, grey_true_to_lch_ab, grey_true_to_xyz, rgb_deep_to_lab, xyz_to_lch_ab, bind_assoc']; cases grey_true_to_rgb_deep w c <;> simp only [ok_bind, throw_bind, ub_bind, grey_true_to_lab, grey_true_to_lch_ab, grey_true_to_xyz, rgb_deep_to_lab, xyz_to_lch_ab, bind_assoc'])
theorem cut_grey_true_xyz_lch_uv (w : World) (c : Color) : grey_true_to_lch_uv w c = (grey_true_to_xyz w c >>= fun d => xyz_to_lch_uv w d) := by first | (simp only [grey_true_to_cieluv, grey_true_to_lch_uv, grey_true_to_xyz, xyz_to_lch_uv, bind_assoc'] <;> rfl) | (simp only [grey_true_to_cieluv, grey_true_to_lch_uv, grey_true_to_xyz, xyz_to_lch_uv, bind_assoc']; cases grey_true_to_rgb_deep w c <;> simp only [ok_bind, throw_bind, ub_bind, grey_true_to_cieluv, grey_true_to_lch_uv, grey_true_to_xyz, xyz_to_lch_uv, bind_assoc'])
theorem cut_grey_deep_xyz_xyy (w : World) (c : Color) : grey_deep_to_xyy w c = (grey_deep_to_xyz w c >>= fun d => xyz_to_xyy w d) := rfl
theorem cut_grey_deep_xyz_cieluv (w : World) (c : Color) : grey_deep_to_cieluv w c = (grey_deep_to_xyz w c >>= fun d => xyz_to_cieluv w d) := rfl
theorem cut_grey_deep_xyz_lab (w : World) (c : Color) : grey_deep_to_lab w c = (grey_deep_to_xyz w c >>= fun d => xyz_to_lab w d) := by first | (simp only [grey_deep_to_lab, grey_deep_to_xyz, rgb_deep_to_lab, bind_assoc'] <;> rfl) | (simp only [grey_deep_to_lab, grey_deep_to_xyz, rgb_deep_to_lab, bind_assoc']; cases grey_deep_to_rgb_deep w c <;> simp only [ok_bind, throw_bind, ub_bind, grey_deep_to_lab, grey_deep_to_xyz, rgb_deep_to_lab, bind_assoc'])
theorem cut_grey_deep_xyz_lch_ab (w : World) (c : Color) : grey_deep_to_lch_ab w c = (grey_deep_to_xyz w c >>= fun d => xyz_to_lch_ab w d) := by first | (simp only [grey_deep_to_lab, grey_deep_to_lch_ab, grey_deep_to_xyz, rgb_deep_to_lab, xyz_to_lch_ab, bind_assoc'] <;> rfl) | (simp only [grey_deep_to_lab, grey_deep_to_lch_ab, grey_deep_to_xyz, rgb_deep_to_lab, xyz_to_lch_ab, bind_assoc']; cases grey_deep_to_rgb_deep w c <;> simp only [ok_bind, throw_bind, ub_bind, grey_deep_to_lab, grey_deep_to_lch_ab, grey_deep_to_xyz, rgb_deep_to_lab, xyz_to_lch_ab, bind_assoc'])
theorem cut_grey_deep_xyz_lch_uv (w : World) (c : Color) : grey_deep_to_lch_uv w c = (grey_deep_to_xyz w c >>= fun d => xyz_to_lch_uv w d) := by first | (simp only [grey_deep_to_cieluv, grey_deep_to_lch_uv, grey_deep_to_xyz, xyz_to_lch_uv, bind_assoc'] <;> rfl) | (simp only [grey_deep_to_cieluv, grey_deep_to_lch_uv, grey_deep_to_xyz, xyz_to_lch_uv, bind_assoc']; cases grey_deep_to_rgb_deep w c <;> simp only [ok_bind, throw_bind, ub_bind, grey_deep_to_cieluv, grey_deep_to_lch_uv, grey_deep_to_xyz, xyz_to_lch_uv, bind_assoc'])
theorem cut_cmyk_xyz_xyy (w : World) (c : Color) : cmyk_to_xyy w c = (cmyk_to_xyz w c >>= fun d => xyz_to_xyy w d) := rfl
theorem cut_cmyk_xyz_cieluv (w : World) (c : Color) : cmyk_to_cieluv w c = (cmyk_to_xyz w c >>= fun d => xyz_to_cieluv w d) := rfl
theorem cut_cmyk_xyz_lab (w : World) (c : Color) : cmyk_to_lab w c = (cmyk_to_xyz w c >>= fun d => xyz_to_lab w d) := by first | (simp only [cmyk_to_lab, cmyk_to_xyz, rgb_deep_to_lab, bind_assoc'] <;> rfl) | (simp only [cmyk_to_lab, cmyk_to_xyz, rgb_deep_to_lab, bind_assoc']; cases cmyk_to_rgb_deep w c <;> simp only [ok_bind, throw_bind, ub_bind, cmyk_to_lab, cmyk_to_xyz, rgb_deep_to_lab, bind_assoc'])
theorem cut_cmyk_xyz_lch_ab (w : World) (c : Color) : cmyk_to_lch_ab w c = (cmyk_to_xyz w c >>= fun d => xyz_to_lch_ab w d) := by first | (simp only [cmyk_to_lab, cmyk_to_lch_ab, cmyk_to_xyz, rgb_deep_to_lab, xyz_to_lch_ab, bind_assoc'] <;> rfl) | (simp only [cmyk_to_lab, cmyk_to_lch_ab, cmyk_to_xyz, rgb_deep_to_lab, xyz_to_lch_ab, bind_assoc']; cases cmyk_to_rgb_deep w c <;> simp only [ok_bind, throw_bind, ub_bind, cmyk_to_lab, cmyk_to_lch_ab, cmyk_to_xyz, rgb_deep_to_lab, xyz_to_lch_ab, bind_assoc'])
theorem cut_cmyk_xyz_lch_uv (w : World) (c : Color) : cmyk_to_lch_uv w c = (cmyk_to_xyz w c >>= fun d => xyz_to_lch_uv w d) := by first | (simp only [cmyk_to_cieluv, cmyk_to_lch_uv, cmyk_to_xyz, xyz_to_lch_uv, bind_assoc'] <;> rfl) | (simp only [cmyk_to_cieluv, cmyk_to_lch_uv, cmyk_to_xyz, xyz_to_lch_uv, bind_assoc']; cases cmyk_to_rgb_deep w c <;> simp only [ok_bind, throw_bind, ub_bind, cmyk_to_cieluv, cmyk_to_lch_uv, cmyk_to_xyz, xyz_to_lch_uv, bind_assoc'])
theorem cut_hsi_xyz_xyy (w : World) (c : Color) : hsi_to_xyy w c = (hsi_to_xyz w c >>= fun d => xyz_to_xyy w d) := by first | (simp only [hsi_to_xyy, hsi_to_xyz, rgb_deep_to_xyy, bind_assoc'] <;> rfl) | (simp only [hsi_to_xyy, hsi_to_xyz, rgb_deep_to_xyy, bind_assoc']; cases hsi_to_rgb_deep w c <;> simp only [ok_bind, throw_bind, ub_bind, hsi_to_xyy, hsi_to_xyz, rgb_deep_to_xyy, bind_assoc'])
theorem cut_hsi_xyz_cieluv (w : World) (c : Color) : hsi_to_cieluv w c = (hsi_to_xyz w c >>= fun d => xyz_to_cieluv w d) := by first | (simp only [hsi_to_cieluv, hsi_to_xyz, rgb_deep_to_cieluv, bind_assoc'] <;> rfl) | (simp only [hsi_to_cieluv, hsi_to_xyz, rgb_deep_to_cieluv, bind_assoc']; cases hsi_to_rgb_deep w c <;> simp only [ok_bind, throw_bind, ub_bind, hsi_to_cieluv, hsi_to_xyz, rgb_deep_to_cieluv, bind_assoc'])
theorem cut_hsi_xyz_lab (w : World) (c : Color) : hsi_to_lab w c = (hsi_to_xyz w c >>= fun d => xyz_to_lab w d) := by first | (simp only [hsi_to_lab, hsi_to_xyz, rgb_deep_to_lab, bind_assoc'] <;> rfl) | (simp only [hsi_to_lab, hsi_to_xyz, rgb_deep_to_lab, bind_assoc']; cases hsi_to_rgb_deep w c <;> simp only [ok_bind, throw_bind, ub_bind, hsi_to_lab, hsi_to_xyz, rgb_deep_to_lab, bind_assoc'])
theorem cut_hsi_xyz_lch_ab (w : World) (c : Color) : hsi_to_lch_ab w c = (hsi_to_xyz w c >>= fun d => xyz_to_lch_ab w d) := by first | (simp only [hsi_to_lch_ab, hsi_to_xyz, rgb_deep_to_lab, rgb_deep_to_lch_ab, xyz_to_lch_ab, bind_assoc'] <;> rfl) | (simp only [hsi_to_lch_ab, hsi_to_xyz, rgb_deep_to_lab, rgb_deep_to_lch_ab, xyz_to_lch_ab, bind_assoc']; cases hsi_to_rgb_deep w c <;> simp only [ok_bind, throw_bind, ub_bind, hsi_to_lch_ab, hsi_to_xyz, rgb_deep_to_lab, rgb_deep_to_lch_ab, xyz_to_lch_ab, bind_assoc'])
theorem cut_hsi_xyz_lch_uv (w : World) (c : Color) : hsi_to_lch_uv w c = (hsi_to_xyz w c >>= fun d => xyz_to_lch_uv w d) := by first | (simp only [hsi_to_lch_uv, hsi_to_xyz, rgb_deep_to_cieluv, rgb_deep_to_lch_uv, xyz_to_lch_uv, bind_assoc'] <;> rfl) | (simp only [hsi_to_lch_uv, hsi_to_xyz, rgb_deep_to_cieluv, rgb_deep_to_lch_uv, xyz_to_lch_uv, bind_assoc']; cases hsi_to_rgb_deep w c <;> simp only [ok_bind, throw_bind, ub_bind, hsi_to_lch_uv, hsi_to_xyz, rgb_deep_to_cieluv, rgb_deep_to_lch_uv, xyz_to_lch_uv, bind_assoc'])
theorem cut_hsv_xyz_xyy (w : World) (c : Color) : hsv_to_xyy w c = (hsv_to_xyz w c >>= fun d => xyz_to_xyy w d) := rfl
theorem cut_hsv_xyz_cieluv (w : World) (c : Color) : hsv_to_cieluv w c = (hsv_to_xyz w c >>= fun d => xyz_to_cieluv w d) := rfl
theorem cut_hsv_xyz_lab (w : World) (c : Color) : hsv_to_lab w c = (hsv_to_xyz w c >>= fun d => xyz_to_lab w d) := by first | (simp only [hsv_to_lab, hsv_to_xyz, rgb_deep_to_lab, bind_assoc'] <;> rfl) | (simp only [hsv_to_lab, hsv_to_xyz, rgb_deep_to_lab, bind_assoc']; cases hsv_to_rgb_deep w c <;> simp only [ok_bind, throw_bind, ub_bind, hsv_to_lab, hsv_to_xyz, rgb_deep_to_lab, bind_assoc'])
theorem cut_hsv_xyz_lch_ab (w : World) (c : Color) : hsv_to_lch_ab w c = (hsv_to_xyz w c >>= fun d => xyz_to_lch_ab w d) := by first | (simp only [hsv_to_lab, hsv_to_lch_ab, hsv_to_xyz, rgb_deep_to_lab, xyz_to_lch_ab, bind_assoc'] <;> rfl) | (simp only [hsv_to_lab, hsv_to_lch_ab, hsv_to_xyz, rgb_deep_to_lab, xyz_to_lch_ab, bind_assoc']; cases hsv_to_rgb_deep w c <;> simp only [ok_bind, throw_bind, ub_bind, hsv_to_lab, hsv_to_lch_ab, hsv_to_xyz, rgb_deep_to_lab, xyz_to_lch_ab, bind_assoc'])
theorem cut_hsv_xyz_lch_uv (w : World) (c : Color) : hsv_to_lch_uv w c = (hsv_to_xyz w c >>= fun d => xyz_to_lch_uv w d) := by first | (simp only [hsv_to_cieluv, hsv_to_lch_uv, hsv_to_xyz, xyz_to_lch_uv, bind_assoc'] <;> rfl) | (simp only [hsv_to_cieluv, hsv_to_lch_uv, hsv_to_xyz, xyz_to_lch_uv, bind_assoc']; cases hsv_to_rgb_deep w c <;> simp only [ok_bind, throw_bind, ub_bind, hsv_to_cieluv, hsv_to_lch_uv, hsv_to_xyz, xyz_to_lch_uv, bind_assoc'])
theorem cut_hsl_xyz_xyy (w : World) (c : Color) : hsl_to_xyy w c = (hsl_to_xyz w c >>= fun d => xyz_to_xyy w d) := rfl
theorem cut_hsl_xyz_cieluv (w : World) (c : Color) : hsl_to_cieluv w c = (hsl_to_xyz w c >>= fun d => xyz_to_cieluv w d) := rfl
theorem cut_hsl_xyz_lab (w : World) (c : Color) : hsl_to_lab w c = (hsl_to_xyz w c >>= fun d => xyz_to_lab w d) := by first | (simp only [hsl_to_lab, hsl_to_xyz, rgb_deep_to_lab, bind_assoc'] <;> rfl) | (simp only [hsl_to_lab, hsl_to_xyz, rgb_deep_to_lab, bind_assoc']; cases hsl_to_rgb_deep w c <;> simp only [ok_bind, throw_bind, ub_bind, hsl_to_lab, hsl_to_xyz, rgb_deep_to_lab, bind_assoc'])
theorem cut_hsl_xyz_lch_ab (w : World) (c : Color) : hsl_to_lch_ab w c = (hsl_to_xyz w c >>= fun d => xyz_to_lch_ab w d) := by first | (simp only [hsl_to_lab, hsl_to_lch_ab, hsl_to_xyz, rgb_deep_to_lab, xyz_to_lch_ab, bind_assoc'] <;> rfl) | (simp only [hsl_to_lab, hsl_to_lch_ab, hsl_to_xyz, rgb_deep_to_lab, xyz_to_lch_ab, bind_assoc']; cases hsl_to_rgb_deep w c <;> simp only [ok_bind, throw_bind, ub_bind, hsl_to_lab, hsl_to_lch_ab, hsl_to_xyz, rgb_deep_to_lab, xyz_to_lch_ab, bind_assoc'])
theorem cut_hsl_xyz_lch_uv (w : World) (c : Color) : hsl_to_lch_uv w c = (hsl_to_xyz w c >>= fun d => xyz_to_lch_uv w d) := by first | (simp only [hsl_to_cieluv, hsl_to_lch_uv, hsl_to_xyz, xyz_to_lch_uv, bind_assoc'] <;> rfl) | (simp only [hsl_to_cieluv, hsl_to_lch_uv, hsl_to_xyz, xyz_to_lch_uv, bind_assoc']; cases hsl_to_rgb_deep w c <;> simp only [ok_bind, throw_bind, ub_bind, hsl_to_cieluv, hsl_to_lch_uv, hsl_to_xyz, xyz_to_lch_uv, bind_assoc'])
theorem cut_hcy_xyz_xyy (w : World) (c : Color) : hcy_to_xyy w c = (hcy_to_xyz w c >>= fun d => xyz_to_xyy w d) := by first | (simp only [hcy_to_xyy, hcy_to_xyz, rgb_deep_to_xyy, bind_assoc'] <;> rfl) | (simp only [hcy_to_xyy, hcy_to_xyz, rgb_deep_to_xyy, bind_assoc']; cases hcy_to_rgb_deep w c <;> simp only [ok_bind, throw_bind, ub_bind, hcy_to_xyy, hcy_to_xyz, rgb_deep_to_xyy, bind_assoc'])
theorem cut_hcy_xyz_cieluv (w : World) (c : Color) : hcy_to_cieluv w c = (hcy_to_xyz w c >>= fun d => xyz_to_cieluv w d) := by first | (simp only [hcy_to_cieluv, hcy_to_xyz, rgb_deep_to_cieluv, bind_assoc'] <;> rfl) | (simp only [hcy_to_cieluv, hcy_to_xyz, rgb_deep_to_cieluv, bind_assoc']; cases hcy_to_rgb_deep w c <;> simp only [ok_bind, throw_bind, ub_bind, hcy_to_cieluv, hcy_to_xyz, rgb_deep_to_cieluv, bind_assoc'])
theorem cut_hcy_xyz_lab (w : World) (c : Color) : hcy_to_lab w c = (hcy_to_xyz w c >>= fun d => xyz_to_lab w d) := by first | (simp only [hcy_to_lab, hcy_to_xyz, rgb_deep_to_lab, bind_assoc'] <;> rfl) | (simp only [hcy_to_lab, hcy_to_xyz, rgb_deep_to_lab, bind_assoc']; cases hcy_to_rgb_deep w c <;> simp only [ok_bind, throw_bind, ub_bind, hcy_to_lab, hcy_to_xyz, rgb_deep_to_lab, bind_assoc'])
theorem cut_hcy_xyz_lch_ab (w : World) (c : Color) : hcy_to_lch_ab w c = (hcy_to_xyz w c >>= fun d => xyz_to_lch_ab w d) := by first | (simp only [hcy_to_lch_ab, hcy_to_xyz, rgb_deep_to_lab, rgb_deep_to_lch_ab, xyz_to_lch_ab, bind_assoc'] <;> rfl) | (simp only [hcy_to_lch_ab, hcy_to_xyz, rgb_deep_to_lab, rgb_deep_to_lch_ab, xyz_to_lch_ab, bind_assoc']; cases hcy_to_rgb_deep w c <;> simp only [ok_bind, throw_bind, ub_bind, hcy_to_lch_ab, hcy_to_xyz, rgb_deep_to_lab, rgb_deep_to_lch_ab, xyz_to_lch_ab, bind_assoc'])
theorem cut_hcy_xyz_lch_uv (w : World) (c : Color) : hcy_to_lch_uv w c = (hcy_to_xyz w c >>= fun d => xyz_to_lch_uv w d) := by first | (simp only [hcy_to_lch_uv, hcy_to_xyz, rgb_deep_to_cieluv, rgb_deep_to_lch_uv, xyz_to_lch_uv, bind_assoc'] <;> rfl) | (simp only [hcy_to_lch_uv, hcy_to_xyz, rgb_deep_to_cieluv, rgb_deep_to_lch_uv, xyz_to_lch_uv, bind_assoc']; cases hcy_to_rgb_deep w c <;> simp only [ok_bind, throw_bind, ub_bind, hcy_to_lch_uv, hcy_to_xyz, rgb_deep_to_cieluv, rgb_deep_to_lch_uv, xyz_to_lch_uv, bind_assoc'])
theorem cut_xyy_xyz_rgb_true (w : World) (c : Color) : xyy_to_rgb_true w c = (xyy_to_xyz w c >>= fun d => xyz_to_rgb_true w d) := rfl
theorem cut_xyy_xyz_rgb_deep (w : World) (c : Color) : xyy_to_rgb_deep w c = (xyy_to_xyz w c >>= fun d => xyz_to_rgb_deep w d) := rfl
theorem cut_xyy_xyz_grey_true (w : World) (c : Color) : xyy_to_grey_true w c = (xyy_to_xyz w c >>= fun d => xyz_to_grey_true w d) := rfl
theorem cut_xyy_xyz_grey_deep (w : World) (c : Color) : xyy_to_grey_deep w c = (xyy_to_xyz w c >>= fun d => xyz_to_grey_deep w d) := rfl
theorem cut_xyy_xyz_cmyk (w : World) (c : Color) : xyy_to_cmyk w c = (xyy_to_xyz w c >>= fun d => xyz_to_cmyk w d) := rfl
theorem cut_xyy_xyz_hsi (w : World) (c : Color) : xyy_to_hsi w c = (xyy_to_xyz w c >>= fun d => xyz_to_hsi w d) := rfl
theorem cut_xyy_xyz_hsv (w : World) (c : Color) : xyy_to_hsv w c = (xyy_to_xyz w c >>= fun d => xyz_to_hsv w d) := rfl
theorem cut_xyy_xyz_hsl (w : World) (c : Color) : xyy_to_hsl w c = (xyy_to_xyz w c >>= fun d => xyz_to_hsl w d) := rfl
theorem cut_xyy_xyz_hcy (w : World) (c : Color) : xyy_to_hcy w c = (xyy_to_xyz w c >>= fun d => xyz_to_hcy w d) := rfl
theorem cut_xyy_xyz_cieluv (w : World) (c : Color) : xyy_to_cieluv w c = (xyy_to_xyz w c >>= fun d => xyz_to_cieluv w d) := rfl
theorem cut_xyy_xyz_lab (w : World) (c : Color) : xyy_to_lab w c = (xyy_to_xyz w c >>= fun d => xyz_to_lab w d) := rfl
theorem cut_xyy_xyz_lch_ab (w : World) (c : Color) : xyy_to_lch_ab w c = (xyy_to_xyz w c >>= fun d => xyz_to_lch_ab w d) := by first | (simp only [xyy_to_lab, xyy_to_lch_ab, xyz_to_lch_ab, bind_assoc'] <;> rfl) | (simp only [xyy_to_lab, xyy_to_lch_ab, xyz_to_lch_ab, bind_assoc']; cases xyy_to_xyz w c <;> simp only [ok_bind, throw_bind, ub_bind, xyy_to_lab, xyy_to_lch_ab, xyz_to_lch_ab, bind_assoc'])
theorem cut_xyy_xyz_lch_uv (w : World) (c : Color) : xyy_to_lch_uv w c = (xyy_to_xyz w c >>= fun d => xyz_to_lch_uv w d) := by first | (simp only [xyy_to_cieluv, xyy_to_lch_uv, xyz_to_lch_uv, bind_assoc'] <;> rfl) | (simp only [xyy_to_cieluv, xyy_to_lch_uv, xyz_to_lch_uv, bind_assoc']; cases xyy_to_xyz w c <;> simp only [ok_bind, throw_bind, ub_bind, xyy_to_cieluv, xyy_to_lch_uv, xyz_to_lch_uv, bind_assoc'])
theorem cut_cieluv_xyz_rgb_true (w : World) (c : Color) : cieluv_to_rgb_true w c = (cieluv_to_xyz w c >>= fun d => xyz_to_rgb_true w d) := rfl
theorem cut_cieluv_xyz_rgb_deep (w : World) (c : Color) : cieluv_to_rgb_deep w c = (cieluv_to_xyz w c >>= fun d => xyz_to_rgb_deep w d) := rfl
theorem cut_cieluv_xyz_grey_true (w : World) (c : Color) : cieluv_to_grey_true w c = (cieluv_to_xyz w c >>= fun d => xyz_to_grey_true w d) := rfl
theorem cut_cieluv_xyz_grey_deep (w : World) (c : Color) : cieluv_to_grey_deep w c = (cieluv_to_xyz w c >>= fun d => xyz_to_grey_deep w d) := rfl
theorem cut_cieluv_xyz_cmyk (w : World) (c : Color) : cieluv_to_cmyk w c = (cieluv_to_xyz w c >>= fun d => xyz_to_cmyk w d) := rfl
theorem cut_cieluv_xyz_hsi (w : World) (c : Color) : cieluv_to_hsi w c = (cieluv_to_xyz w c >>= fun d => xyz_to_hsi w d) := rfl
theorem cut_cieluv_xyz_hsv (w : World) (c : Color) : cieluv_to_hsv w c = (cieluv_to_xyz w c >>= fun d => xyz_to_hsv w d) := rfl
theorem cut_cieluv_xyz_hsl (w : World) (c : Color) : cieluv_to_hsl w c = (cieluv_to_xyz w c >>= fun d => xyz_to_hsl w d) := rfl
theorem cut_cieluv_xyz_hcy (w : World) (c : Color) : cieluv_to_hcy w c = (cieluv_to_xyz w c >>= fun d => xyz_to_hcy w d) := rfl
theorem cut_cieluv_xyz_xyy (w : World) (c : Color) : cieluv_to_xyy w c = (cieluv_to_xyz w c >>= fun d => xyz_to_xyy w d) := rfl
theorem cut_cieluv_xyz_lab (w : World) (c : Color) : cieluv_to_lab w c = (cieluv_to_xyz w c >>= fun d => xyz_to_lab w d) := rfl
theorem cut_cieluv_xyz_lch_ab (w : World) (c : Color) : cieluv_to_lch_ab w c = (cieluv_to_xyz w c >>= fun d => xyz_to_lch_ab w d) := by first | (simp only [cieluv_to_lab, cieluv_to_lch_ab, xyz_to_lch_ab, bind_assoc'] <;> rfl) | (simp only [cieluv_to_lab, cieluv_to_lch_ab, xyz_to_lch_ab, bind_assoc']; cases cieluv_to_xyz w c <;> simp only [ok_bind, throw_bind, ub_bind, cieluv_to_lab, cieluv_to_lch_ab, xyz_to_lch_ab, bind_assoc'])
theorem cut_lab_xyz_rgb_true (w : World) (c : Color) : lab_to_rgb_true w c = (lab_to_xyz w c >>= fun d => xyz_to_rgb_true w d) := rfl
theorem cut_lab_xyz_rgb_deep (w : World) (c : Color) : lab_to_rgb_deep w c = (lab_to_xyz w c >>= fun d => xyz_to_rgb_deep w d) := rfl
theorem cut_lab_xyz_grey_true (w : World) (c : Color) : lab_to_grey_true w c = (lab_to_xyz w c >>= fun d => xyz_to_grey_true w d) := rfl
theorem cut_lab_xyz_grey_deep (w : World) (c : Color) : lab_to_grey_deep w c = (lab_to_xyz w c >>= fun d => xyz_to_grey_deep w d) := rfl
theorem cut_lab_xyz_cmyk (w : World) (c : Color) : lab_to_cmyk w c = (lab_to_xyz w c >>= fun d => xyz_to_cmyk w d) := rfl
theorem cut_lab_xyz_hsi (w : World) (c : Color) : lab_to_hsi w c = (lab_to_xyz w c >>= fun d => xyz_to_hsi w d) := rfl
theorem cut_lab_xyz_hsv (w : World) (c : Color) : lab_to_hsv w c = (lab_to_xyz w c >>= fun d => xyz_to_hsv w d) := rfl
theorem cut_lab_xyz_hsl (w : World) (c : Color) : lab_to_hsl w c = (lab_to_xyz w c >>= fun d => xyz_to_hsl w d) := rfl
theorem cut_lab_xyz_hcy (w : World) (c : Color) : lab_to_hcy w c = (lab_to_xyz w c >>= fun d => xyz_to_hcy w d) := rfl
theorem cut_lab_xyz_xyy (w : World) (c : Color) : lab_to_xyy w c = (lab_to_xyz w c >>= fun d => xyz_to_xyy w d) := rfl
theorem cut_lab_xyz_cieluv (w : World) (c : Color) : lab_to_cieluv w c = (lab_to_xyz w c >>= fun d => xyz_to_cieluv w d) := rfl
theorem cut_lab_xyz_lch_uv (w : World) (c : Color) : lab_to_lch_uv w c = (lab_to_xyz w c >>= fun d => xyz_to_lch_uv w d) := by first | (simp only [lab_to_cieluv, lab_to_lch_uv, xyz_to_lch_uv, bind_assoc'] <;> rfl) | (simp only [lab_to_cieluv, lab_to_lch_uv, xyz_to_lch_uv, bind_assoc']; cases lab_to_xyz w c <;> simp only [ok_bind, throw_bind, ub_bind, lab_to_cieluv, lab_to_lch_uv, xyz_to_lch_uv, bind_assoc'])
theorem cut_lch_ab_xyz_rgb_true (w : World) (c : Color) : lch_ab_to_rgb_true w c = (lch_ab_to_xyz w c >>= fun d => xyz_to_rgb_true w d) := by first | (simp only [lab_to_rgb_true, lch_ab_to_rgb_true, lch_ab_to_xyz, xyz_to_rgb_true, bind_assoc'] <;> rfl) | (simp only [lab_to_rgb_true, lch_ab_to_rgb_true, lch_ab_to_xyz, xyz_to_rgb_true, bind_assoc']; cases lch_ab_to_lab w c <;> simp only [ok_bind, throw_bind, ub_bind, lab_to_rgb_true, lch_ab_to_rgb_true, lch_ab_to_xyz, xyz_to_rgb_true, bind_assoc'])
theorem cut_lch_ab_xyz_rgb_deep (w : World) (c : Color) : lch_ab_to_rgb_deep w c = (lch_ab_to_xyz w c >>= fun d => xyz_to_rgb_deep w d) := by first | (simp only [lab_to_rgb_deep, lch_ab_to_rgb_deep, lch_ab_to_xyz, bind_assoc'] <;> rfl) | (simp only [lab_to_rgb_deep, lch_ab_to_rgb_deep, lch_ab_to_xyz, bind_assoc']; cases lch_ab_to_lab w c <;> simp only [ok_bind, throw_bind, ub_bind, lab_to_rgb_deep, lch_ab_to_rgb_deep, lch_ab_to_xyz, bind_assoc'])
theorem cut_lch_ab_xyz_grey_true (w : World) (c : Color) : lch_ab_to_grey_true w c = (lch_ab_to_xyz w c >>= fun d => xyz_to_grey_true w d) := by first | (simp only [lab_to_grey_true, lch_ab_to_grey_true, lch_ab_to_xyz, rgb_deep_to_grey_true, xyz_to_grey_true, bind_assoc'] <;> rfl) | (simp only [lab_to_grey_true, lch_ab_to_grey_true, lch_ab_to_xyz, rgb_deep_to_grey_true, xyz_to_grey_true, bind_assoc']; cases lch_ab_to_lab w c <;> simp only [ok_bind, throw_bind, ub_bind, lab_to_grey_true, lch_ab_to_grey_true, lch_ab_to_xyz, rgb_deep_to_grey_true, xyz_to_grey_true, bind_assoc'])
theorem cut_lch_ab_xyz_grey_deep (w : World) (c : Color) : lch_ab_to_grey_deep w c = (lch_ab_to_xyz w c >>= fun d => xyz_to_grey_deep w d) := by first | (simp only [lab_to_grey_deep, lch_ab_to_grey_deep, lch_ab_to_xyz, xyz_to_grey_deep, bind_assoc'] <;> rfl) | (simp only [lab_to_grey_deep, lch_ab_to_grey_deep, lch_ab_to_xyz, xyz_to_grey_deep, bind_assoc']; cases lch_ab_to_lab w c <;> simp only [ok_bind, throw_bind, ub_bind, lab_to_grey_deep, lch_ab_to_grey_deep, lch_ab_to_xyz, xyz_to_grey_deep, bind_assoc'])
theorem cut_lch_ab_xyz_cmyk (w : World) (c : Color) : lch_ab_to_cmyk w c = (lch_ab_to_xyz w c >>= fun d => xyz_to_cmyk w d) := by first | (simp only [lab_to_cmyk, lch_ab_to_cmyk, lch_ab_to_xyz, xyz_to_cmyk, bind_assoc'] <;> rfl) | (simp only [lab_to_cmyk, lch_ab_to_cmyk, lch_ab_to_xyz, xyz_to_cmyk, bind_assoc']; cases lch_ab_to_lab w c <;> simp only [ok_bind, throw_bind, ub_bind, lab_to_cmyk, lch_ab_to_cmyk, lch_ab_to_xyz, xyz_to_cmyk, bind_assoc'])
theorem cut_lch_ab_xyz_hsi (w : World) (c : Color) : lch_ab_to_hsi w c = (lch_ab_to_xyz w c >>= fun d => xyz_to_hsi w d) := by first | (simp only [lab_to_hsi, lch_ab_to_hsi, lch_ab_to_xyz, xyz_to_hsi, bind_assoc'] <;> rfl) | (simp only [lab_to_hsi, lch_ab_to_hsi, lch_ab_to_xyz, xyz_to_hsi, bind_assoc']; cases lch_ab_to_lab w c <;> simp only [ok_bind, throw_bind, ub_bind, lab_to_hsi, lch_ab_to_hsi, lch_ab_to_xyz, xyz_to_hsi, bind_assoc'])
theorem cut_lch_ab_xyz_hsv (w : World) (c : Color) : lch_ab_to_hsv w c = (lch_ab_to_xyz w c >>= fun d => xyz_to_hsv w d) := by first | (simp only [lab_to_hsv, lch_ab_to_hsv, lch_ab_to_xyz, xyz_to_hsv, bind_assoc'] <;> rfl) | (simp only [lab_to_hsv, lch_ab_to_hsv, lch_ab_to_xyz, xyz_to_hsv, bind_assoc']; cases lch_ab_to_lab w c <;> simp only [ok_bind, throw_bind, ub_bind, lab_to_hsv, lch_ab_to_hsv, lch_ab_to_xyz, xyz_to_hsv, bind_assoc'])
theorem cut_lch_ab_xyz_hsl (w : World) (c : Color) : lch_ab_to_hsl w c = (lch_ab_to_xyz w c >>= fun d => xyz_to_hsl w d) := by first | (simp only [lab_to_hsl, lch_ab_to_hsl, lch_ab_to_xyz, xyz_to_hsl, bind_assoc'] <;> rfl) | (simp only [lab_to_hsl, lch_ab_to_hsl, lch_ab_to_xyz, xyz_to_hsl, bind_assoc']; cases lch_ab_to_lab w c <;> simp only [ok_bind, throw_bind, ub_bind, lab_to_hsl, lch_ab_to_hsl, lch_ab_to_xyz, xyz_to_hsl, bind_assoc'])
theorem cut_lch_ab_xyz_hcy (w : World) (c : Color) : lch_ab_to_hcy w c = (lch_ab_to_xyz w c >>= fun d => xyz_to_hcy w d) := by first | (simp only [lab_to_hcy, lch_ab_to_hcy, lch_ab_to_xyz, xyz_to_hcy, bind_assoc'] <;> rfl) | (simp only [lab_to_hcy, lch_ab_to_hcy, lch_ab_to_xyz, xyz_to_hcy, bind_assoc']; cases lch_ab_to_lab w c <;> simp only [ok_bind, throw_bind, ub_bind, lab_to_hcy, lch_ab_to_hcy, lch_ab_to_xyz, xyz_to_hcy, bind_assoc'])
theorem cut_lch_ab_xyz_xyy (w : World) (c : Color) : lch_ab_to_xyy w c = (lch_ab_to_xyz w c >>= fun d => xyz_to_xyy w d) := by first | (simp only [lab_to_xyy, lch_ab_to_xyy, lch_ab_to_xyz, bind_assoc'] <;> rfl) | (simp only [lab_to_xyy, lch_ab_to_xyy, lch_ab_to_xyz, bind_assoc']; cases lch_ab_to_lab w c <;> simp only [ok_bind, throw_bind, ub_bind, lab_to_xyy, lch_ab_to_xyy, lch_ab_to_xyz, bind_assoc'])
theorem cut_lch_ab_xyz_cieluv (w : World) (c : Color) : lch_ab_to_cieluv w c = (lch_ab_to_xyz w c >>= fun d => xyz_to_cieluv w d) := by first | (simp only [lab_to_cieluv, lch_ab_to_cieluv, lch_ab_to_xyz, bind_assoc'] <;> rfl) | (simp only [lab_to_cieluv, lch_ab_to_cieluv, lch_ab_to_xyz, bind_assoc']; cases lch_ab_to_lab w c <;> simp only [ok_bind, throw_bind, ub_bind, lab_to_cieluv, lch_ab_to_cieluv, lch_ab_to_xyz, bind_assoc'])
theorem cut_lch_ab_xyz_lch_uv (w : World) (c : Color) : lch_ab_to_lch_uv w c = (lch_ab_to_xyz w c >>= fun d => xyz_to_lch_uv w d) := by first | (simp only [lab_to_cieluv, lch_ab_to_cieluv, lch_ab_to_lch_uv, lch_ab_to_xyz, xyz_to_lch_uv, bind_assoc'] <;> rfl) | (simp only [lab_to_cieluv, lch_ab_to_cieluv, lch_ab_to_lch_uv, lch_ab_to_xyz, xyz_to_lch_uv, bind_assoc']; cases lch_ab_to_lab w c <;> simp only [ok_bind, throw_bind, ub_bind, lab_to_cieluv, lch_ab_to_cieluv, lch_ab_to_lch_uv, lch_ab_to_xyz, xyz_to_lch_uv, bind_assoc'])
theorem cut_lch_uv_xyz_rgb_true (w : World) (c : Color) : lch_uv_to_rgb_true w c = (lch_uv_to_xyz w c >>= fun d => xyz_to_rgb_true w d) := by first | (simp only [cieluv_to_rgb_true, lch_uv_to_rgb_true, lch_uv_to_xyz, xyz_to_rgb_true, bind_assoc'] <;> rfl) | (simp only [cieluv_to_rgb_true, lch_uv_to_rgb_true, lch_uv_to_xyz, xyz_to_rgb_true, bind_assoc']; cases lch_uv_to_cieluv w c <;> simp only [ok_bind, throw_bind, ub_bind, cieluv_to_rgb_true, lch_uv_to_rgb_true, lch_uv_to_xyz, xyz_to_rgb_true, bind_assoc'])
theorem cut_lch_uv_xyz_rgb_deep (w : World) (c : Color) : lch_uv_to_rgb_deep w c = (lch_uv_to_xyz w c >>= fun d => xyz_to_rgb_deep w d) := by first | (simp only [cieluv_to_rgb_deep, lch_uv_to_rgb_deep, lch_uv_to_xyz, bind_assoc'] <;> rfl) | (simp only [cieluv_to_rgb_deep, lch_uv_to_rgb_deep, lch_uv_to_xyz, bind_assoc']; cases lch_uv_to_cieluv w c <;> simp only [ok_bind, throw_bind, ub_bind, cieluv_to_rgb_deep, lch_uv_to_rgb_deep, lch_uv_to_xyz, bind_assoc'])
theorem cut_lch_uv_xyz_grey_true (w : World) (c : Color) : lch_uv_to_grey_true w c = (lch_uv_to_xyz w c >>= fun d => xyz_to_grey_true w d) := by first | (simp only [cieluv_to_grey_true, lch_uv_to_grey_true, lch_uv_to_xyz, rgb_deep_to_grey_true, xyz_to_grey_true, bind_assoc'] <;> rfl) | (simp only [cieluv_to_grey_true, lch_uv_to_grey_true, lch_uv_to_xyz, rgb_deep_to_grey_true, xyz_to_grey_true, bind_assoc']; cases lch_uv_to_cieluv w c <;> simp only [ok_bind, throw_bind, ub_bind, cieluv_to_grey_true, lch_uv_to_grey_true, lch_uv_to_xyz, rgb_deep_to_grey_true, xyz_to_grey_true, bind_assoc'])
theorem cut_lch_uv_xyz_grey_deep (w : World) (c : Color) : lch_uv_to_grey_deep w c = (lch_uv_to_xyz w c >>= fun d => xyz_to_grey_deep w d) := by first | (simp only [cieluv_to_grey_deep, lch_uv_to_grey_deep, lch_uv_to_xyz, xyz_to_grey_deep, bind_assoc'] <;> rfl) | (simp only [cieluv_to_grey_deep, lch_uv_to_grey_deep, lch_uv_to_xyz, xyz_to_grey_deep, bind_assoc']; cases lch_uv_to_cieluv w c <;> simp only [ok_bind, throw_bind, ub_bind, cieluv_to_grey_deep, lch_uv_to_grey_deep, lch_uv_to_xyz, xyz_to_grey_deep, bind_assoc'])
theorem cut_lch_uv_xyz_cmyk (w : World) (c : Color) : lch_uv_to_cmyk w c = (lch_uv_to_xyz w c >>= fun d => xyz_to_cmyk w d) := by first | (simp only [cieluv_to_cmyk, lch_uv_to_cmyk, lch_uv_to_xyz, xyz_to_cmyk, bind_assoc'] <;> rfl) | (simp only [cieluv_to_cmyk, lch_uv_to_cmyk, lch_uv_to_xyz, xyz_to_cmyk, bind_assoc']; cases lch_uv_to_cieluv w c <;> simp only [ok_bind, throw_bind, ub_bind, cieluv_to_cmyk, lch_uv_to_cmyk, lch_uv_to_xyz, xyz_to_cmyk, bind_assoc'])
theorem cut_lch_uv_xyz_hsi (w : World) (c : Color) : lch_uv_to_hsi w c = (lch_uv_to_xyz w c >>= fun d => xyz_to_hsi w d) := by first | (simp only [cieluv_to_hsi, lch_uv_to_hsi, lch_uv_to_xyz, xyz_to_hsi, bind_assoc'] <;> rfl) | (simp only [cieluv_to_hsi, lch_uv_to_hsi, lch_uv_to_xyz, xyz_to_hsi, bind_assoc']; cases lch_uv_to_cieluv w c <;> simp only [ok_bind, throw_bind, ub_bind, cieluv_to_hsi, lch_uv_to_hsi, lch_uv_to_xyz, xyz_to_hsi, bind_assoc'])
theorem cut_lch_uv_xyz_hsv (w : World) (c : Color) : lch_uv_to_hsv w c = (lch_uv_to_xyz w c >>= fun d => xyz_to_hsv w d) := by first | (simp only [cieluv_to_hsv, lch_uv_to_hsv, lch_uv_to_xyz, xyz_to_hsv, bind_assoc'] <;> rfl) | (simp only [cieluv_to_hsv, lch_uv_to_hsv, lch_uv_to_xyz, xyz_to_hsv, bind_assoc']; cases lch_uv_to_cieluv w c <;> simp only [ok_bind, throw_bind, ub_bind, cieluv_to_hsv, lch_uv_to_hsv, lch_uv_to_xyz, xyz_to_hsv, bind_assoc'])
theorem cut_lch_uv_xyz_hsl (w : World) (c : Color) : lch_uv_to_hsl w c = (lch_uv_to_xyz w c >>= fun d => xyz_to_hsl w d) := by first | (simp only [cieluv_to_hsl, lch_uv_to_hsl, lch_uv_to_xyz, xyz_to_hsl, bind_assoc'] <;> rfl) | (simp only [cieluv_to_hsl, lch_uv_to_hsl, lch_uv_to_xyz, xyz_to_hsl, bind_assoc']; cases lch_uv_to_cieluv w c <;> simp only [ok_bind, throw_bind, ub_bind, cieluv_to_hsl, lch_uv_to_hsl, lch_uv_to_xyz, xyz_to_hsl, bind_assoc'])
theorem cut_lch_uv_xyz_hcy (w : World) (c : Color) : lch_uv_to_hcy w c = (lch_uv_to_xyz w c >>= fun d => xyz_to_hcy w d) := by first | (simp only [cieluv_to_hcy, lch_uv_to_hcy, lch_uv_to_xyz, xyz_to_hcy, bind_assoc'] <;> rfl) | (simp only [cieluv_to_hcy, lch_uv_to_hcy, lch_uv_to_xyz, xyz_to_hcy, bind_assoc']; cases lch_uv_to_cieluv w c <;> simp only [ok_bind, throw_bind, ub_bind, cieluv_to_hcy, lch_uv_to_hcy, lch_uv_to_xyz, xyz_to_hcy, bind_assoc'])
theorem cut_lch_uv_xyz_xyy (w : World) (c : Color) : lch_uv_to_xyy w c = (lch_uv_to_xyz w c >>= fun d => xyz_to_xyy w d) := by first | (simp only [cieluv_to_xyy, lch_uv_to_xyy, lch_uv_to_xyz, bind_assoc'] <;> rfl) | (simp only [cieluv_to_xyy, lch_uv_to_xyy, lch_uv_to_xyz, bind_assoc']; cases lch_uv_to_cieluv w c <;> simp only [ok_bind, throw_bind, ub_bind, cieluv_to_xyy, lch_uv_to_xyy, lch_uv_to_xyz, bind_assoc'])
theorem cut_lch_uv_xyz_lab (w : World) (c : Color) : lch_uv_to_lab w c = (lch_uv_to_xyz w c >>= fun d => xyz_to_lab w d) := by first | (simp only [cieluv_to_lab, lch_uv_to_lab, lch_uv_to_xyz, bind_assoc'] <;> rfl) | (simp only [cieluv_to_lab, lch_uv_to_lab, lch_uv_to_xyz, bind_assoc']; cases lch_uv_to_cieluv w c <;> simp only [ok_bind, throw_bind, ub_bind, cieluv_to_lab, lch_uv_to_lab, lch_uv_to_xyz, bind_assoc'])
theorem cut_lch_uv_xyz_lch_ab (w : World) (c : Color) : lch_uv_to_lch_ab w c = (lch_uv_to_xyz w c >>= fun d => xyz_to_lch_ab w d) := by first | (simp only [cieluv_to_lab, cieluv_to_lch_ab, lch_uv_to_lch_ab, lch_uv_to_xyz, xyz_to_lch_ab, bind_assoc'] <;> rfl) | (simp only [cieluv_to_lab, cieluv_to_lch_ab, lch_uv_to_lch_ab, lch_uv_to_xyz, xyz_to_lch_ab, bind_assoc']; cases lch_uv_to_cieluv w c <;> simp only [ok_bind, throw_bind, ub_bind, cieluv_to_lab, cieluv_to_lch_ab, lch_uv_to_lch_ab, lch_uv_to_xyz, xyz_to_lch_ab, bind_assoc'])

theorem cut_rgb_true_lab_lch_ab (w : World) (c : Color) : rgb_true_to_lch_ab w c = (rgb_true_to_lab w c >>= fun d => lab_to_lch_ab w d) := rfl
theorem cut_rgb_deep_lab_lch_ab (w : World) (c : Color) : rgb_deep_to_lch_ab w c = (rgb_deep_to_lab w c >>= fun d => lab_to_lch_ab w d) := rfl
theorem cut_grey_true_lab_lch_ab (w : World) (c : Color) : grey_true_to_lch_ab w c = (grey_true_to_lab w c >>= fun d => lab_to_lch_ab w d) := rfl
theorem cut_grey_deep_lab_lch_ab (w : World) (c : Color) : grey_deep_to_lch_ab w c = (grey_deep_to_lab w c >>= fun d => lab_to_lch_ab w d) := rfl
theorem cut_cmyk_lab_lch_ab (w : World) (c : Color) : cmyk_to_lch_ab w c = (cmyk_to_lab w c >>= fun d => lab_to_lch_ab w d) := rfl
theorem cut_hsi_lab_lch_ab (w : World) (c : Color) : hsi_to_lch_ab w c = (hsi_to_lab w c >>= fun d => lab_to_lch_ab w d) := by first | (simp only [hsi_to_lab, hsi_to_lch_ab, rgb_deep_to_lab, rgb_deep_to_lch_ab, bind_assoc'] <;> rfl) | (simp only [hsi_to_lab, hsi_to_lch_ab, rgb_deep_to_lab, rgb_deep_to_lch_ab, bind_assoc']; cases hsi_to_rgb_deep w c <;> simp only [ok_bind, throw_bind, ub_bind, hsi_to_lab, hsi_to_lch_ab, rgb_deep_to_lab, rgb_deep_to_lch_ab, bind_assoc'])
theorem cut_hsv_lab_lch_ab (w : World) (c : Color) : hsv_to_lch_ab w c = (hsv_to_lab w c >>= fun d => lab_to_lch_ab w d) := rfl
theorem cut_hsl_lab_lch_ab (w : World) (c : Color) : hsl_to_lch_ab w c = (hsl_to_lab w c >>= fun d => lab_to_lch_ab w d) := rfl
theorem cut_hcy_lab_lch_ab (w : World) (c : Color) : hcy_to_lch_ab w c = (hcy_to_lab w c >>= fun d => lab_to_lch_ab w d) := by first | (simp only [hcy_to_lab, hcy_to_lch_ab, rgb_deep_to_lab, rgb_deep_to_lch_ab, bind_assoc'] <;> rfl) | (simp only [hcy_to_lab, hcy_to_lch_ab, rgb_deep_to_lab, rgb_deep_to_lch_ab, bind_assoc']; cases hcy_to_rgb_deep w c <;> simp only [ok_bind, throw_bind, ub_bind, hcy_to_lab, hcy_to_lch_ab, rgb_deep_to_lab, rgb_deep_to_lch_ab, bind_assoc'])
theorem cut_xyz_lab_lch_ab (w : World) (c : Color) : xyz_to_lch_ab w c = (xyz_to_lab w c >>= fun d => lab_to_lch_ab w d) := rfl
theorem cut_xyy_lab_lch_ab (w : World) (c : Color) : xyy_to_lch_ab w c = (xyy_to_lab w c >>= fun d => lab_to_lch_ab w d) := rfl
theorem cut_cieluv_lab_lch_ab (w : World) (c : Color) : cieluv_to_lch_ab w c = (cieluv_to_lab w c >>= fun d => lab_to_lch_ab w d) := rfl
theorem cut_lch_ab_lab_rgb_true (w : World) (c : Color) : lch_ab_to_rgb_true w c = (lch_ab_to_lab w c >>= fun d => lab_to_rgb_true w d) := rfl
theorem cut_lch_ab_lab_rgb_deep (w : World) (c : Color) : lch_ab_to_rgb_deep w c = (lch_ab_to_lab w c >>= fun d => lab_to_rgb_deep w d) := rfl
theorem cut_lch_ab_lab_grey_true (w : World) (c : Color) : lch_ab_to_grey_true w c = (lch_ab_to_lab w c >>= fun d => lab_to_grey_true w d) := rfl
theorem cut_lch_ab_lab_grey_deep (w : World) (c : Color) : lch_ab_to_grey_deep w c = (lch_ab_to_lab w c >>= fun d => lab_to_grey_deep w d) := rfl
theorem cut_lch_ab_lab_cmyk (w : World) (c : Color) : lch_ab_to_cmyk w c = (lch_ab_to_lab w c >>= fun d => lab_to_cmyk w d) := rfl
theorem cut_lch_ab_lab_hsi (w : World) (c : Color) : lch_ab_to_hsi w c = (lch_ab_to_lab w c >>= fun d => lab_to_hsi w d) := rfl
theorem cut_lch_ab_lab_hsv (w : World) (c : Color) : lch_ab_to_hsv w c = (lch_ab_to_lab w c >>= fun d => lab_to_hsv w d) := rfl
theorem cut_lch_ab_lab_hsl (w : World) (c : Color) : lch_ab_to_hsl w c = (lch_ab_to_lab w c >>= fun d => lab_to_hsl w d) := rfl
theorem cut_lch_ab_lab_hcy (w : World) (c : Color) : lch_ab_to_hcy w c = (lch_ab_to_lab w c >>= fun d => lab_to_hcy w d) := rfl
theorem cut_lch_ab_lab_xyz (w : World) (c : Color) : lch_ab_to_xyz w c = (lch_ab_to_lab w c >>= fun d => lab_to_xyz w d) := rfl
theorem cut_lch_ab_lab_xyy (w : World) (c : Color) : lch_ab_to_xyy w c = (lch_ab_to_lab w c >>= fun d => lab_to_xyy w d) := rfl
theorem cut_lch_ab_lab_cieluv (w : World) (c : Color) : lch_ab_to_cieluv w c = (lch_ab_to_lab w c >>= fun d => lab_to_cieluv w d) := rfl
theorem cut_lch_ab_lab_lch_uv (w : World) (c : Color) : lch_ab_to_lch_uv w c = (lch_ab_to_lab w c >>= fun d => lab_to_lch_uv w d) := by first | (simp only [lab_to_cieluv, lab_to_lch_uv, lch_ab_to_cieluv, lch_ab_to_lch_uv, bind_assoc'] <;> rfl) | (simp only [lab_to_cieluv, lab_to_lch_uv, lch_ab_to_cieluv, lch_ab_to_lch_uv, bind_assoc']; cases lch_ab_to_lab w c <;> simp only [ok_bind, throw_bind, ub_bind, lab_to_cieluv, lab_to_lch_uv, lch_ab_to_cieluv, lch_ab_to_lch_uv, bind_assoc'])
theorem cut_lch_uv_lab_lch_ab (w : World) (c : Color) : lch_uv_to_lch_ab w c = (lch_uv_to_lab w c >>= fun d => lab_to_lch_ab w d) := by first | (simp only [cieluv_to_lab, cieluv_to_lch_ab, lch_uv_to_lab, lch_uv_to_lch_ab, bind_assoc'] <;> rfl) | (simp only [cieluv_to_lab, cieluv_to_lch_ab, lch_uv_to_lab, lch_uv_to_lch_ab, bind_assoc']; cases lch_uv_to_cieluv w c <;> simp only [ok_bind, throw_bind, ub_bind, cieluv_to_lab, cieluv_to_lch_ab, lch_uv_to_lab, lch_uv_to_lch_ab, bind_assoc'])

theorem cut_rgb_true_cieluv_lch_uv (w : World) (c : Color) : rgb_true_to_lch_uv w c = (rgb_true_to_cieluv w c >>= fun d => cieluv_to_lch_uv w d) := rfl
theorem cut_rgb_deep_cieluv_lch_uv (w : World) (c : Color) : rgb_deep_to_lch_uv w c = (rgb_deep_to_cieluv w c >>= fun d => cieluv_to_lch_uv w d) := rfl
theorem cut_grey_true_cieluv_lch_uv (w : World) (c : Color) : grey_true_to_lch_uv w c = (grey_true_to_cieluv w c >>= fun d => cieluv_to_lch_uv w d) := rfl
theorem cut_grey_deep_cieluv_lch_uv (w : World) (c : Color) : grey_deep_to_lch_uv w c = (grey_deep_to_cieluv w c >>= fun d => cieluv_to_lch_uv w d) := rfl
theorem cut_cmyk_cieluv_lch_uv (w : World) (c : Color) : cmyk_to_lch_uv w c = (cmyk_to_cieluv w c >>= fun d => cieluv_to_lch_uv w d) := rfl
theorem cut_hsi_cieluv_lch_uv (w : World) (c : Color) : hsi_to_lch_uv w c = (hsi_to_cieluv w c >>= fun d => cieluv_to_lch_uv w d) := by first | (simp only [hsi_to_cieluv, hsi_to_lch_uv, rgb_deep_to_cieluv, rgb_deep_to_lch_uv, bind_assoc'] <;> rfl) | (simp only [hsi_to_cieluv, hsi_to_lch_uv, rgb_deep_to_cieluv, rgb_deep_to_lch_uv, bind_assoc']; cases hsi_to_rgb_deep w c <;> simp only [ok_bind, throw_bind, ub_bind, hsi_to_cieluv, hsi_to_lch_uv, rgb_deep_to_cieluv, rgb_deep_to_lch_uv, bind_assoc'])
theorem cut_hsv_cieluv_lch_uv (w : World) (c : Color) : hsv_to_lch_uv w c = (hsv_to_cieluv w c >>= fun d => cieluv_to_lch_uv w d) := rfl
theorem cut_hsl_cieluv_lch_uv (w : World) (c : Color) : hsl_to_lch_uv w c = (hsl_to_cieluv w c >>= fun d => cieluv_to_lch_uv w d) := rfl
theorem cut_hcy_cieluv_lch_uv (w : World) (c : Color) : hcy_to_lch_uv w c = (hcy_to_cieluv w c >>= fun d => cieluv_to_lch_uv w d) := by first | (simp only [hcy_to_cieluv, hcy_to_lch_uv, rgb_deep_to_cieluv, rgb_deep_to_lch_uv, bind_assoc'] <;> rfl) | (simp only [hcy_to_cieluv, hcy_to_lch_uv, rgb_deep_to_cieluv, rgb_deep_to_lch_uv, bind_assoc']; cases hcy_to_rgb_deep w c <;> simp only [ok_bind, throw_bind, ub_bind, hcy_to_cieluv, hcy_to_lch_uv, rgb_deep_to_cieluv, rgb_deep_to_lch_uv, bind_assoc'])
theorem cut_xyz_cieluv_lch_uv (w : World) (c : Color) : xyz_to_lch_uv w c = (xyz_to_cieluv w c >>= fun d => cieluv_to_lch_uv w d) := rfl
theorem cut_xyy_cieluv_lch_uv (w : World) (c : Color) : xyy_to_lch_uv w c = (xyy_to_cieluv w c >>= fun d => cieluv_to_lch_uv w d) := rfl
theorem cut_lab_cieluv_lch_uv (w : World) (c : Color) : lab_to_lch_uv w c = (lab_to_cieluv w c >>= fun d => cieluv_to_lch_uv w d) := rfl
theorem cut_lch_ab_cieluv_lch_uv (w : World) (c : Color) : lch_ab_to_lch_uv w c = (lch_ab_to_cieluv w c >>= fun d => cieluv_to_lch_uv w d) := rfl
theorem cut_lch_uv_cieluv_rgb_true (w : World) (c : Color) : lch_uv_to_rgb_true w c = (lch_uv_to_cieluv w c >>= fun d => cieluv_to_rgb_true w d) := rfl
theorem cut_lch_uv_cieluv_rgb_deep (w : World) (c : Color) : lch_uv_to_rgb_deep w c = (lch_uv_to_cieluv w c >>= fun d => cieluv_to_rgb_deep w d) := rfl
theorem cut_lch_uv_cieluv_grey_true (w : World) (c : Color) : lch_uv_to_grey_true w c = (lch_uv_to_cieluv w c >>= fun d => cieluv_to_grey_true w d) := rfl
theorem cut_lch_uv_cieluv_grey_deep (w : World) (c : Color) : lch_uv_to_grey_deep w c = (lch_uv_to_cieluv w c >>= fun d => cieluv_to_grey_deep w d) := rfl
theorem cut_lch_uv_cieluv_cmyk (w : World) (c : Color) : lch_uv_to_cmyk w c = (lch_uv_to_cieluv w c >>= fun d => cieluv_to_cmyk w d) := rfl
theorem cut_lch_uv_cieluv_hsi (w : World) (c : Color) : lch_uv_to_hsi w c = (lch_uv_to_cieluv w c >>= fun d => cieluv_to_hsi w d) := rfl
theorem cut_lch_uv_cieluv_hsv (w : World) (c : Color) : lch_uv_to_hsv w c = (lch_uv_to_cieluv w c >>= fun d => cieluv_to_hsv w d) := rfl
theorem cut_lch_uv_cieluv_hsl (w : World) (c : Color) : lch_uv_to_hsl w c = (lch_uv_to_cieluv w c >>= fun d => cieluv_to_hsl w d) := rfl
theorem cut_lch_uv_cieluv_hcy (w : World) (c : Color) : lch_uv_to_hcy w c = (lch_uv_to_cieluv w c >>= fun d => cieluv_to_hcy w d) := rfl
theorem cut_lch_uv_cieluv_xyz (w : World) (c : Color) : lch_uv_to_xyz w c = (lch_uv_to_cieluv w c >>= fun d => cieluv_to_xyz w d) := rfl
theorem cut_lch_uv_cieluv_xyy (w : World) (c : Color) : lch_uv_to_xyy w c = (lch_uv_to_cieluv w c >>= fun d => cieluv_to_xyy w d) := rfl
theorem cut_lch_uv_cieluv_lab (w : World) (c : Color) : lch_uv_to_lab w c = (lch_uv_to_cieluv w c >>= fun d => cieluv_to_lab w d) := rfl
theorem cut_lch_uv_cieluv_lch_ab (w : World) (c : Color) : lch_uv_to_lch_ab w c = (lch_uv_to_cieluv w c >>= fun d => cieluv_to_lch_ab w d) := rfl

theorem cut_rgb_deep_rgb_true_grey_true (w : World) (c : Color) : rgb_deep_to_grey_true w c = (rgb_deep_to_rgb_true w c >>= fun d => rgb_true_to_grey_true w d) := rfl
theorem cut_cmyk_rgb_true_grey_true (w : World) (c : Color) : cmyk_to_grey_true w c = (cmyk_to_rgb_true w c >>= fun d => rgb_true_to_grey_true w d) := by first | (simp only [cmyk_to_grey_true, cmyk_to_rgb_true, rgb_deep_to_grey_true, bind_assoc'] <;> rfl) | (simp only [cmyk_to_grey_true, cmyk_to_rgb_true, rgb_deep_to_grey_true, bind_assoc']; cases cmyk_to_rgb_deep w c <;> simp only [ok_bind, throw_bind, ub_bind, cmyk_to_grey_true, cmyk_to_rgb_true, rgb_deep_to_grey_true, bind_assoc'])
theorem cut_hsi_rgb_true_grey_true (w : World) (c : Color) : hsi_to_grey_true w c = (hsi_to_rgb_true w c >>= fun d => rgb_true_to_grey_true w d) := by first | (simp only [hsi_to_grey_true, hsi_to_rgb_true, rgb_deep_to_grey_true, bind_assoc'] <;> rfl) | (simp only [hsi_to_grey_true, hsi_to_rgb_true, rgb_deep_to_grey_true, bind_assoc']; cases hsi_to_rgb_deep w c <;> simp only [ok_bind, throw_bind, ub_bind, hsi_to_grey_true, hsi_to_rgb_true, rgb_deep_to_grey_true, bind_assoc'])
theorem cut_hsv_rgb_true_grey_true (w : World) (c : Color) : hsv_to_grey_true w c = (hsv_to_rgb_true w c >>= fun d => rgb_true_to_grey_true w d) := by first | (simp only [hsv_to_grey_true, hsv_to_rgb_true, rgb_deep_to_grey_true, bind_assoc'] <;> rfl) | (simp only [hsv_to_grey_true, hsv_to_rgb_true, rgb_deep_to_grey_true, bind_assoc']; cases hsv_to_rgb_deep w c <;> simp only [ok_bind, throw_bind, ub_bind, hsv_to_grey_true, hsv_to_rgb_true, rgb_deep_to_grey_true, bind_assoc'])
theorem cut_hsl_rgb_true_grey_true (w : World) (c : Color) : hsl_to_grey_true w c = (hsl_to_rgb_true w c >>= fun d => rgb_true_to_grey_true w d) := by first | (simp only [hsl_to_grey_true, hsl_to_rgb_true, rgb_deep_to_grey_true, bind_assoc'] <;> rfl) | (simp only [hsl_to_grey_true, hsl_to_rgb_true, rgb_deep_to_grey_true, bind_assoc']; cases hsl_to_rgb_deep w c <;> simp only [ok_bind, throw_bind, ub_bind, hsl_to_grey_true, hsl_to_rgb_true, rgb_deep_to_grey_true, bind_assoc'])
theorem cut_hcy_rgb_true_grey_true (w : World) (c : Color) : hcy_to_grey_true w c = (hcy_to_rgb_true w c >>= fun d => rgb_true_to_grey_true w d) := by first | (simp only [hcy_to_grey_true, hcy_to_rgb_true, rgb_deep_to_grey_true, bind_assoc'] <;> rfl) | (simp only [hcy_to_grey_true, hcy_to_rgb_true, rgb_deep_to_grey_true, bind_assoc']; cases hcy_to_rgb_deep w c <;> simp only [ok_bind, throw_bind, ub_bind, hcy_to_grey_true, hcy_to_rgb_true, rgb_deep_to_grey_true, bind_assoc'])
theorem cut_xyz_rgb_true_grey_true (w : World) (c : Color) : xyz_to_grey_true w c = (xyz_to_rgb_true w c >>= fun d => rgb_true_to_grey_true w d) := by first | (simp only [rgb_deep_to_grey_true, xyz_to_grey_true, xyz_to_rgb_true, bind_assoc'] <;> rfl) | (simp only [rgb_deep_to_grey_true, xyz_to_grey_true, xyz_to_rgb_true, bind_assoc']; cases xyz_to_rgb_deep w c <;> simp only [ok_bind, throw_bind, ub_bind, rgb_deep_to_grey_true, xyz_to_grey_true, xyz_to_rgb_true, bind_assoc'])
theorem cut_xyy_rgb_true_grey_true (w : World) (c : Color) : xyy_to_grey_true w c = (xyy_to_rgb_true w c >>= fun d => rgb_true_to_grey_true w d) := by first | (simp only [rgb_deep_to_grey_true, xyy_to_grey_true, xyy_to_rgb_true, xyz_to_grey_true, xyz_to_rgb_true, bind_assoc'] <;> rfl) | (simp only [rgb_deep_to_grey_true, xyy_to_grey_true, xyy_to_rgb_true, xyz_to_grey_true, xyz_to_rgb_true, bind_assoc']; cases xyy_to_xyz w c <;> simp only [ok_bind, throw_bind, ub_bind, rgb_deep_to_grey_true, xyy_to_grey_true, xyy_to_rgb_true, xyz_to_grey_true, xyz_to_rgb_true, bind_assoc'])
theorem cut_cieluv_rgb_true_grey_true (w : World) (c : Color) : cieluv_to_grey_true w c = (cieluv_to_rgb_true w c >>= fun d => rgb_true_to_grey_true w d) := by first | (simp only [cieluv_to_grey_true, cieluv_to_rgb_true, rgb_deep_to_grey_true, xyz_to_grey_true, xyz_to_rgb_true, bind_assoc'] <;> rfl) | (simp only [cieluv_to_grey_true, cieluv_to_rgb_true, rgb_deep_to_grey_true, xyz_to_grey_true, xyz_to_rgb_true, bind_assoc']; cases cieluv_to_xyz w c <;> simp only [ok_bind, throw_bind, ub_bind, cieluv_to_grey_true, cieluv_to_rgb_true, rgb_deep_to_grey_true, xyz_to_grey_true, xyz_to_rgb_true, bind_assoc'])
theorem cut_lab_rgb_true_grey_true (w : World) (c : Color) : lab_to_grey_true w c = (lab_to_rgb_true w c >>= fun d => rgb_true_to_grey_true w d) := by first | (simp only [lab_to_grey_true, lab_to_rgb_true, rgb_deep_to_grey_true, xyz_to_grey_true, xyz_to_rgb_true, bind_assoc'] <;> rfl) | (simp only [lab_to_grey_true, lab_to_rgb_true, rgb_deep_to_grey_true, xyz_to_grey_true, xyz_to_rgb_true, bind_assoc']; cases lab_to_xyz w c <;> simp only [ok_bind, throw_bind, ub_bind, lab_to_grey_true, lab_to_rgb_true, rgb_deep_to_grey_true, xyz_to_grey_true, xyz_to_rgb_true, bind_assoc'])
theorem cut_lch_ab_rgb_true_grey_true (w : World) (c : Color) : lch_ab_to_grey_true w c = (lch_ab_to_rgb_true w c >>= fun d => rgb_true_to_grey_true w d) := by first | (simp only [lab_to_grey_true, lab_to_rgb_true, lch_ab_to_grey_true, lch_ab_to_rgb_true, rgb_deep_to_grey_true, xyz_to_grey_true, xyz_to_rgb_true, bind_assoc'] <;> rfl) | (simp only [lab_to_grey_true, lab_to_rgb_true, lch_ab_to_grey_true, lch_ab_to_rgb_true, rgb_deep_to_grey_true, xyz_to_grey_true, xyz_to_rgb_true, bind_assoc']; cases lch_ab_to_lab w c <;> simp only [ok_bind, throw_bind, ub_bind, lab_to_grey_true, lab_to_rgb_true, lch_ab_to_grey_true, lch_ab_to_rgb_true, rgb_deep_to_grey_true, xyz_to_grey_true, xyz_to_rgb_true, bind_assoc'])
theorem cut_lch_uv_rgb_true_grey_true (w : World) (c : Color) : lch_uv_to_grey_true w c = (lch_uv_to_rgb_true w c >>= fun d => rgb_true_to_grey_true w d) := by first | (simp only [cieluv_to_grey_true, cieluv_to_rgb_true, lch_uv_to_grey_true, lch_uv_to_rgb_true, rgb_deep_to_grey_true, xyz_to_grey_true, xyz_to_rgb_true, bind_assoc'] <;> rfl) | (simp only [cieluv_to_grey_true, cieluv_to_rgb_true, lch_uv_to_grey_true, lch_uv_to_rgb_true, rgb_deep_to_grey_true, xyz_to_grey_true, xyz_to_rgb_true, bind_assoc']; cases lch_uv_to_cieluv w c <;> simp only [ok_bind, throw_bind, ub_bind, cieluv_to_grey_true, cieluv_to_rgb_true, lch_uv_to_grey_true, lch_uv_to_rgb_true, rgb_deep_to_grey_true, xyz_to_grey_true, xyz_to_rgb_true, bind_assoc'])


/-- The pairs whose conversion passes the station `m`. -/
def passes : ColorType → List (ColorType × ColorType)
  | .rgbDeep => [(.rgbTrue, .cmyk), (.rgbTrue, .hsi), (.rgbTrue, .hsv), (.rgbTrue, .hsl), (.rgbTrue, .hcy), (.rgbTrue, .xyz), (.rgbTrue, .xyy), (.rgbTrue, .cieluv), (.rgbTrue, .lab), (.rgbTrue, .lchAb), (.rgbTrue, .lchUv), (.greyTrue, .cmyk), (.greyTrue, .hsi), (.greyTrue, .hsv), (.greyTrue, .hsl), (.greyTrue, .hcy), (.greyTrue, .xyz), (.greyTrue, .xyy), (.greyTrue, .cieluv), (.greyTrue, .lab), (.greyTrue, .lchAb), (.greyTrue, .lchUv), (.greyDeep, .cmyk), (.greyDeep, .hsi), (.greyDeep, .hsv), (.greyDeep, .hsl), (.greyDeep, .hcy), (.greyDeep, .xyz), (.greyDeep, .xyy), (.greyDeep, .cieluv), (.greyDeep, .lab), (.greyDeep, .lchAb), (.greyDeep, .lchUv), (.cmyk, .rgbTrue), (.cmyk, .greyTrue), (.cmyk, .greyDeep), (.cmyk, .hsi), (.cmyk, .hsv), (.cmyk, .hsl), (.cmyk, .hcy), (.cmyk, .xyz), (.cmyk, .xyy), (.cmyk, .cieluv), (.cmyk, .lab), (.cmyk, .lchAb), (.cmyk, .lchUv), (.hsi, .rgbTrue), (.hsi, .greyTrue), (.hsi, .greyDeep), (.hsi, .cmyk), (.hsi, .hsv), (.hsi, .hsl), (.hsi, .hcy), (.hsi, .xyz), (.hsi, .xyy), (.hsi, .cieluv), (.hsi, .lab), (.hsi, .lchAb), (.hsi, .lchUv), (.hsv, .rgbTrue), (.hsv, .greyTrue), (.hsv, .greyDeep), (.hsv, .cmyk), (.hsv, .hsi), (.hsv, .hcy), (.hsv, .xyz), (.hsv, .xyy), (.hsv, .cieluv), (.hsv, .lab), (.hsv, .lchAb), (.hsv, .lchUv), (.hsl, .rgbTrue), (.hsl, .greyTrue), (.hsl, .greyDeep), (.hsl, .cmyk), (.hsl, .hsi), (.hsl, .hcy), (.hsl, .xyz), (.hsl, .xyy), (.hsl, .cieluv), (.hsl, .lab), (.hsl, .lchAb), (.hsl, .lchUv), (.hcy, .rgbTrue), (.hcy, .greyTrue), (.hcy, .greyDeep), (.hcy, .cmyk), (.hcy, .hsi), (.hcy, .hsv), (.hcy, .hsl), (.hcy, .xyz), (.hcy, .xyy), (.hcy, .cieluv), (.hcy, .lab), (.hcy, .lchAb), (.hcy, .lchUv), (.xyz, .rgbTrue), (.xyz, .greyTrue), (.xyz, .greyDeep), (.xyz, .cmyk), (.xyz, .hsi), (.xyz, .hsv), (.xyz, .hsl), (.xyz, .hcy), (.xyy, .rgbTrue), (.xyy, .greyTrue), (.xyy, .greyDeep), (.xyy, .cmyk), (.xyy, .hsi), (.xyy, .hsv), (.xyy, .hsl), (.xyy, .hcy), (.cieluv, .rgbTrue), (.cieluv, .greyTrue), (.cieluv, .greyDeep), (.cieluv, .cmyk), (.cieluv, .hsi), (.cieluv, .hsv), (.cieluv, .hsl), (.cieluv, .hcy), (.lab, .rgbTrue), (.lab, .greyTrue), (.lab, .greyDeep), (.lab, .cmyk), (.lab, .hsi), (.lab, .hsv), (.lab, .hsl), (.lab, .hcy), (.lchAb, .rgbTrue), (.lchAb, .greyTrue), (.lchAb, .greyDeep), (.lchAb, .cmyk), (.lchAb, .hsi), (.lchAb, .hsv), (.lchAb, .hsl), (.lchAb, .hcy), (.lchUv, .rgbTrue), (.lchUv, .greyTrue), (.lchUv, .greyDeep), (.lchUv, .cmyk), (.lchUv, .hsi), (.lchUv, .hsv), (.lchUv, .hsl), (.lchUv, .hcy)]
  | .xyz => [(.rgbTrue, .xyy), (.rgbTrue, .cieluv), (.rgbTrue, .lab), (.rgbTrue, .lchAb), (.rgbTrue, .lchUv), (.rgbDeep, .xyy), (.rgbDeep, .cieluv), (.rgbDeep, .lab), (.rgbDeep, .lchAb), (.rgbDeep, .lchUv), (.greyTrue, .xyy), (.greyTrue, .cieluv), (.greyTrue, .lab), (.greyTrue, .lchAb), (.greyTrue, .lchUv), (.greyDeep, .xyy), (.greyDeep, .cieluv), (.greyDeep, .lab), (.greyDeep, .lchAb), (.greyDeep, .lchUv), (.cmyk, .xyy), (.cmyk, .cieluv), (.cmyk, .lab), (.cmyk, .lchAb), (.cmyk, .lchUv), (.hsi, .xyy), (.hsi, .cieluv), (.hsi, .lab), (.hsi, .lchAb), (.hsi, .lchUv), (.hsv, .xyy), (.hsv, .cieluv), (.hsv, .lab), (.hsv, .lchAb), (.hsv, .lchUv), (.hsl, .xyy), (.hsl, .cieluv), (.hsl, .lab), (.hsl, .lchAb), (.hsl, .lchUv), (.hcy, .xyy), (.hcy, .cieluv), (.hcy, .lab), (.hcy, .lchAb), (.hcy, .lchUv), (.xyy, .rgbTrue), (.xyy, .rgbDeep), (.xyy, .greyTrue), (.xyy, .greyDeep), (.xyy, .cmyk), (.xyy, .hsi), (.xyy, .hsv), (.xyy, .hsl), (.xyy, .hcy), (.xyy, .cieluv), (.xyy, .lab), (.xyy, .lchAb), (.xyy, .lchUv), (.cieluv, .rgbTrue), (.cieluv, .rgbDeep), (.cieluv, .greyTrue), (.cieluv, .greyDeep), (.cieluv, .cmyk), (.cieluv, .hsi), (.cieluv, .hsv), (.cieluv, .hsl), (.cieluv, .hcy), (.cieluv, .xyy), (.cieluv, .lab), (.cieluv, .lchAb), (.lab, .rgbTrue), (.lab, .rgbDeep), (.lab, .greyTrue), (.lab, .greyDeep), (.lab, .cmyk), (.lab, .hsi), (.lab, .hsv), (.lab, .hsl), (.lab, .hcy), (.lab, .xyy), (.lab, .cieluv), (.lab, .lchUv), (.lchAb, .rgbTrue), (.lchAb, .rgbDeep), (.lchAb, .greyTrue), (.lchAb, .greyDeep), (.lchAb, .cmyk), (.lchAb, .hsi), (.lchAb, .hsv), (.lchAb, .hsl), (.lchAb, .hcy), (.lchAb, .xyy), (.lchAb, .cieluv), (.lchAb, .lchUv), (.lchUv, .rgbTrue), (.lchUv, .rgbDeep), (.lchUv, .greyTrue), (.lchUv, .greyDeep), (.lchUv, .cmyk), (.lchUv, .hsi), (.lchUv, .hsv), (.lchUv, .hsl), (.lchUv, .hcy), (.lchUv, .xyy), (.lchUv, .lab), (.lchUv, .lchAb)]
  | .lab => [(.rgbTrue, .lchAb), (.rgbDeep, .lchAb), (.greyTrue, .lchAb), (.greyDeep, .lchAb), (.cmyk, .lchAb), (.hsi, .lchAb), (.hsv, .lchAb), (.hsl, .lchAb), (.hcy, .lchAb), (.xyz, .lchAb), (.xyy, .lchAb), (.cieluv, .lchAb), (.lchAb, .rgbTrue), (.lchAb, .rgbDeep), (.lchAb, .greyTrue), (.lchAb, .greyDeep), (.lchAb, .cmyk), (.lchAb, .hsi), (.lchAb, .hsv), (.lchAb, .hsl), (.lchAb, .hcy), (.lchAb, .xyz), (.lchAb, .xyy), (.lchAb, .cieluv), (.lchAb, .lchUv), (.lchUv, .lchAb)]
  | .cieluv => [(.rgbTrue, .lchUv), (.rgbDeep, .lchUv), (.greyTrue, .lchUv), (.greyDeep, .lchUv), (.cmyk, .lchUv), (.hsi, .lchUv), (.hsv, .lchUv), (.hsl, .lchUv), (.hcy, .lchUv), (.xyz, .lchUv), (.xyy, .lchUv), (.lab, .lchUv), (.lchAb, .lchUv), (.lchUv, .rgbTrue), (.lchUv, .rgbDeep), (.lchUv, .greyTrue), (.lchUv, .greyDeep), (.lchUv, .cmyk), (.lchUv, .hsi), (.lchUv, .hsv), (.lchUv, .hsl), (.lchUv, .hcy), (.lchUv, .xyz), (.lchUv, .xyy), (.lchUv, .lab), (.lchUv, .lchAb)]
  | .rgbTrue => [(.rgbDeep, .greyTrue), (.cmyk, .greyTrue), (.hsi, .greyTrue), (.hsv, .greyTrue), (.hsl, .greyTrue), (.hcy, .greyTrue), (.xyz, .greyTrue), (.xyy, .greyTrue), (.cieluv, .greyTrue), (.lab, .greyTrue), (.lchAb, .greyTrue), (.lchUv, .greyTrue)]
  | _ => []

theorem cut_all_rgb_deep (w : World) (c : Color) : ∀ p ∈ passes .rgbDeep, conv p.1 p.2 w c = (conv p.1 .rgbDeep w c >>= conv .rgbDeep p.2 w) := by
  simp only [passes, List.forall_mem_cons]
  exact ⟨cut_rgb_true_rgb_deep_cmyk w c, cut_rgb_true_rgb_deep_hsi w c, cut_rgb_true_rgb_deep_hsv w c, cut_rgb_true_rgb_deep_hsl w c, cut_rgb_true_rgb_deep_hcy w c, cut_rgb_true_rgb_deep_xyz w c, cut_rgb_true_rgb_deep_xyy w c, cut_rgb_true_rgb_deep_cieluv w c, cut_rgb_true_rgb_deep_lab w c, cut_rgb_true_rgb_deep_lch_ab w c, cut_rgb_true_rgb_deep_lch_uv w c, cut_grey_true_rgb_deep_cmyk w c, cut_grey_true_rgb_deep_hsi w c, cut_grey_true_rgb_deep_hsv w c, cut_grey_true_rgb_deep_hsl w c, cut_grey_true_rgb_deep_hcy w c, cut_grey_true_rgb_deep_xyz w c, cut_grey_true_rgb_deep_xyy w c, cut_grey_true_rgb_deep_cieluv w c, cut_grey_true_rgb_deep_lab w c, cut_grey_true_rgb_deep_lch_ab w c, cut_grey_true_rgb_deep_lch_uv w c, cut_grey_deep_rgb_deep_cmyk w c, cut_grey_deep_rgb_deep_hsi w c, cut_grey_deep_rgb_deep_hsv w c, cut_grey_deep_rgb_deep_hsl w c, cut_grey_deep_rgb_deep_hcy w c, cut_grey_deep_rgb_deep_xyz w c, cut_grey_deep_rgb_deep_xyy w c, cut_grey_deep_rgb_deep_cieluv w c, cut_grey_deep_rgb_deep_lab w c, cut_grey_deep_rgb_deep_lch_ab w c, cut_grey_deep_rgb_deep_lch_uv w c, cut_cmyk_rgb_deep_rgb_true w c, cut_cmyk_rgb_deep_grey_true w c, cut_cmyk_rgb_deep_grey_deep w c, cut_cmyk_rgb_deep_hsi w c, cut_cmyk_rgb_deep_hsv w c, cut_cmyk_rgb_deep_hsl w c, cut_cmyk_rgb_deep_hcy w c, cut_cmyk_rgb_deep_xyz w c, cut_cmyk_rgb_deep_xyy w c, cut_cmyk_rgb_deep_cieluv w c, cut_cmyk_rgb_deep_lab w c, cut_cmyk_rgb_deep_lch_ab w c, cut_cmyk_rgb_deep_lch_uv w c, cut_hsi_rgb_deep_rgb_true w c, cut_hsi_rgb_deep_grey_true w c, cut_hsi_rgb_deep_grey_deep w c, cut_hsi_rgb_deep_cmyk w c, cut_hsi_rgb_deep_hsv w c, cut_hsi_rgb_deep_hsl w c, cut_hsi_rgb_deep_hcy w c, cut_hsi_rgb_deep_xyz w c, cut_hsi_rgb_deep_xyy w c, cut_hsi_rgb_deep_cieluv w c, cut_hsi_rgb_deep_lab w c, cut_hsi_rgb_deep_lch_ab w c, cut_hsi_rgb_deep_lch_uv w c, cut_hsv_rgb_deep_rgb_true w c, cut_hsv_rgb_deep_grey_true w c, cut_hsv_rgb_deep_grey_deep w c, cut_hsv_rgb_deep_cmyk w c, cut_hsv_rgb_deep_hsi w c, cut_hsv_rgb_deep_hcy w c, cut_hsv_rgb_deep_xyz w c, cut_hsv_rgb_deep_xyy w c, cut_hsv_rgb_deep_cieluv w c, cut_hsv_rgb_deep_lab w c, cut_hsv_rgb_deep_lch_ab w c, cut_hsv_rgb_deep_lch_uv w c, cut_hsl_rgb_deep_rgb_true w c, cut_hsl_rgb_deep_grey_true w c, cut_hsl_rgb_deep_grey_deep w c, cut_hsl_rgb_deep_cmyk w c, cut_hsl_rgb_deep_hsi w c, cut_hsl_rgb_deep_hcy w c, cut_hsl_rgb_deep_xyz w c, cut_hsl_rgb_deep_xyy w c, cut_hsl_rgb_deep_cieluv w c, cut_hsl_rgb_deep_lab w c, cut_hsl_rgb_deep_lch_ab w c, cut_hsl_rgb_deep_lch_uv w c, cut_hcy_rgb_deep_rgb_true w c, cut_hcy_rgb_deep_grey_true w c, cut_hcy_rgb_deep_grey_deep w c, cut_hcy_rgb_deep_cmyk w c, cut_hcy_rgb_deep_hsi w c, cut_hcy_rgb_deep_hsv w c, cut_hcy_rgb_deep_hsl w c, cut_hcy_rgb_deep_xyz w c, cut_hcy_rgb_deep_xyy w c, cut_hcy_rgb_deep_cieluv w c, cut_hcy_rgb_deep_lab w c, cut_hcy_rgb_deep_lch_ab w c, cut_hcy_rgb_deep_lch_uv w c, cut_xyz_rgb_deep_rgb_true w c, cut_xyz_rgb_deep_grey_true w c, cut_xyz_rgb_deep_grey_deep w c, cut_xyz_rgb_deep_cmyk w c, cut_xyz_rgb_deep_hsi w c, cut_xyz_rgb_deep_hsv w c, cut_xyz_rgb_deep_hsl w c, cut_xyz_rgb_deep_hcy w c, cut_xyy_rgb_deep_rgb_true w c, cut_xyy_rgb_deep_grey_true w c, cut_xyy_rgb_deep_grey_deep w c, cut_xyy_rgb_deep_cmyk w c, cut_xyy_rgb_deep_hsi w c, cut_xyy_rgb_deep_hsv w c, cut_xyy_rgb_deep_hsl w c, cut_xyy_rgb_deep_hcy w c, cut_cieluv_rgb_deep_rgb_true w c, cut_cieluv_rgb_deep_grey_true w c, cut_cieluv_rgb_deep_grey_deep w c, cut_cieluv_rgb_deep_cmyk w c, cut_cieluv_rgb_deep_hsi w c, cut_cieluv_rgb_deep_hsv w c, cut_cieluv_rgb_deep_hsl w c, cut_cieluv_rgb_deep_hcy w c, cut_lab_rgb_deep_rgb_true w c, cut_lab_rgb_deep_grey_true w c, cut_lab_rgb_deep_grey_deep w c, cut_lab_rgb_deep_cmyk w c, cut_lab_rgb_deep_hsi w c, cut_lab_rgb_deep_hsv w c, cut_lab_rgb_deep_hsl w c, cut_lab_rgb_deep_hcy w c, cut_lch_ab_rgb_deep_rgb_true w c, cut_lch_ab_rgb_deep_grey_true w c, cut_lch_ab_rgb_deep_grey_deep w c, cut_lch_ab_rgb_deep_cmyk w c, cut_lch_ab_rgb_deep_hsi w c, cut_lch_ab_rgb_deep_hsv w c, cut_lch_ab_rgb_deep_hsl w c, cut_lch_ab_rgb_deep_hcy w c, cut_lch_uv_rgb_deep_rgb_true w c, cut_lch_uv_rgb_deep_grey_true w c, cut_lch_uv_rgb_deep_grey_deep w c, cut_lch_uv_rgb_deep_cmyk w c, cut_lch_uv_rgb_deep_hsi w c, cut_lch_uv_rgb_deep_hsv w c, cut_lch_uv_rgb_deep_hsl w c, cut_lch_uv_rgb_deep_hcy w c, by simp⟩

theorem cut_all_xyz (w : World) (c : Color) : ∀ p ∈ passes .xyz, conv p.1 p.2 w c = (conv p.1 .xyz w c >>= conv .xyz p.2 w) := by
  simp only [passes, List.forall_mem_cons]
  exact ⟨cut_rgb_true_xyz_xyy w c, cut_rgb_true_xyz_cieluv w c, cut_rgb_true_xyz_lab w c, cut_rgb_true_xyz_lch_ab w c, cut_rgb_true_xyz_lch_uv w c, cut_rgb_deep_xyz_xyy w c, cut_rgb_deep_xyz_cieluv w c, cut_rgb_deep_xyz_lab w c, cut_rgb_deep_xyz_lch_ab w c, cut_rgb_deep_xyz_lch_uv w c, cut_grey_true_xyz_xyy w c, cut_grey_true_xyz_cieluv w c, cut_grey_true_xyz_lab w c, cut_grey_true_xyz_lch_ab w c, cut_grey_true_xyz_lch_uv w c, cut_grey_deep_xyz_xyy w c, cut_grey_deep_xyz_cieluv w c, cut_grey_deep_xyz_lab w c, cut_grey_deep_xyz_lch_ab w c, cut_grey_deep_xyz_lch_uv w c, cut_cmyk_xyz_xyy w c, cut_cmyk_xyz_cieluv w c, cut_cmyk_xyz_lab w c, cut_cmyk_xyz_lch_ab w c, cut_cmyk_xyz_lch_uv w c, cut_hsi_xyz_xyy w c, cut_hsi_xyz_cieluv w c, cut_hsi_xyz_lab w c, cut_hsi_xyz_lch_ab w c, cut_hsi_xyz_lch_uv w c, cut_hsv_xyz_xyy w c, cut_hsv_xyz_cieluv w c, cut_hsv_xyz_lab w c, cut_hsv_xyz_lch_ab w c, cut_hsv_xyz_lch_uv w c, cut_hsl_xyz_xyy w c, cut_hsl_xyz_cieluv w c, cut_hsl_xyz_lab w c, cut_hsl_xyz_lch_ab w c, cut_hsl_xyz_lch_uv w c, cut_hcy_xyz_xyy w c, cut_hcy_xyz_cieluv w c, cut_hcy_xyz_lab w c, cut_hcy_xyz_lch_ab w c, cut_hcy_xyz_lch_uv w c, cut_xyy_xyz_rgb_true w c, cut_xyy_xyz_rgb_deep w c, cut_xyy_xyz_grey_true w c, cut_xyy_xyz_grey_deep w c, cut_xyy_xyz_cmyk w c, cut_xyy_xyz_hsi w c, cut_xyy_xyz_hsv w c, cut_xyy_xyz_hsl w c, cut_xyy_xyz_hcy w c, cut_xyy_xyz_cieluv w c, cut_xyy_xyz_lab w c, cut_xyy_xyz_lch_ab w c, cut_xyy_xyz_lch_uv w c, cut_cieluv_xyz_rgb_true w c, cut_cieluv_xyz_rgb_deep w c, cut_cieluv_xyz_grey_true w c, cut_cieluv_xyz_grey_deep w c, cut_cieluv_xyz_cmyk w c, cut_cieluv_xyz_hsi w c, cut_cieluv_xyz_hsv w c, cut_cieluv_xyz_hsl w c, cut_cieluv_xyz_hcy w c, cut_cieluv_xyz_xyy w c, cut_cieluv_xyz_lab w c, cut_cieluv_xyz_lch_ab w c, cut_lab_xyz_rgb_true w c, cut_lab_xyz_rgb_deep w c, cut_lab_xyz_grey_true w c, cut_lab_xyz_grey_deep w c, cut_lab_xyz_cmyk w c, cut_lab_xyz_hsi w c, cut_lab_xyz_hsv w c, cut_lab_xyz_hsl w c, cut_lab_xyz_hcy w c, cut_lab_xyz_xyy w c, cut_lab_xyz_cieluv w c, cut_lab_xyz_lch_uv w c, cut_lch_ab_xyz_rgb_true w c, cut_lch_ab_xyz_rgb_deep w c, cut_lch_ab_xyz_grey_true w c, cut_lch_ab_xyz_grey_deep w c, cut_lch_ab_xyz_cmyk w c, cut_lch_ab_xyz_hsi w c, cut_lch_ab_xyz_hsv w c, cut_lch_ab_xyz_hsl w c, cut_lch_ab_xyz_hcy w c, cut_lch_ab_xyz_xyy w c, cut_lch_ab_xyz_cieluv w c, cut_lch_ab_xyz_lch_uv w c, cut_lch_uv_xyz_rgb_true w c, cut_lch_uv_xyz_rgb_deep w c, cut_lch_uv_xyz_grey_true w c, cut_lch_uv_xyz_grey_deep w c, cut_lch_uv_xyz_cmyk w c, cut_lch_uv_xyz_hsi w c, cut_lch_uv_xyz_hsv w c, cut_lch_uv_xyz_hsl w c, cut_lch_uv_xyz_hcy w c, cut_lch_uv_xyz_xyy w c, cut_lch_uv_xyz_lab w c, cut_lch_uv_xyz_lch_ab w c, by simp⟩

theorem cut_all_lab (w : World) (c : Color) : ∀ p ∈ passes .lab, conv p.1 p.2 w c = (conv p.1 .lab w c >>= conv .lab p.2 w) := by
  simp only [passes, List.forall_mem_cons]
  exact ⟨cut_rgb_true_lab_lch_ab w c, cut_rgb_deep_lab_lch_ab w c, cut_grey_true_lab_lch_ab w c, cut_grey_deep_lab_lch_ab w c, cut_cmyk_lab_lch_ab w c, cut_hsi_lab_lch_ab w c, cut_hsv_lab_lch_ab w c, cut_hsl_lab_lch_ab w c, cut_hcy_lab_lch_ab w c, cut_xyz_lab_lch_ab w c, cut_xyy_lab_lch_ab w c, cut_cieluv_lab_lch_ab w c, cut_lch_ab_lab_rgb_true w c, cut_lch_ab_lab_rgb_deep w c, cut_lch_ab_lab_grey_true w c, cut_lch_ab_lab_grey_deep w c, cut_lch_ab_lab_cmyk w c, cut_lch_ab_lab_hsi w c, cut_lch_ab_lab_hsv w c, cut_lch_ab_lab_hsl w c, cut_lch_ab_lab_hcy w c, cut_lch_ab_lab_xyz w c, cut_lch_ab_lab_xyy w c, cut_lch_ab_lab_cieluv w c, cut_lch_ab_lab_lch_uv w c, cut_lch_uv_lab_lch_ab w c, by simp⟩

theorem cut_all_cieluv (w : World) (c : Color) : ∀ p ∈ passes .cieluv, conv p.1 p.2 w c = (conv p.1 .cieluv w c >>= conv .cieluv p.2 w) := by
  simp only [passes, List.forall_mem_cons]
  exact ⟨cut_rgb_true_cieluv_lch_uv w c, cut_rgb_deep_cieluv_lch_uv w c, cut_grey_true_cieluv_lch_uv w c, cut_grey_deep_cieluv_lch_uv w c, cut_cmyk_cieluv_lch_uv w c, cut_hsi_cieluv_lch_uv w c, cut_hsv_cieluv_lch_uv w c, cut_hsl_cieluv_lch_uv w c, cut_hcy_cieluv_lch_uv w c, cut_xyz_cieluv_lch_uv w c, cut_xyy_cieluv_lch_uv w c, cut_lab_cieluv_lch_uv w c, cut_lch_ab_cieluv_lch_uv w c, cut_lch_uv_cieluv_rgb_true w c, cut_lch_uv_cieluv_rgb_deep w c, cut_lch_uv_cieluv_grey_true w c, cut_lch_uv_cieluv_grey_deep w c, cut_lch_uv_cieluv_cmyk w c, cut_lch_uv_cieluv_hsi w c, cut_lch_uv_cieluv_hsv w c, cut_lch_uv_cieluv_hsl w c, cut_lch_uv_cieluv_hcy w c, cut_lch_uv_cieluv_xyz w c, cut_lch_uv_cieluv_xyy w c, cut_lch_uv_cieluv_lab w c, cut_lch_uv_cieluv_lch_ab w c, by simp⟩

theorem cut_all_rgb_true (w : World) (c : Color) : ∀ p ∈ passes .rgbTrue, conv p.1 p.2 w c = (conv p.1 .rgbTrue w c >>= conv .rgbTrue p.2 w) := by
  simp only [passes, List.forall_mem_cons]
  exact ⟨cut_rgb_deep_rgb_true_grey_true w c, cut_cmyk_rgb_true_grey_true w c, cut_hsi_rgb_true_grey_true w c, cut_hsv_rgb_true_grey_true w c, cut_hsl_rgb_true_grey_true w c, cut_hcy_rgb_true_grey_true w c, cut_xyz_rgb_true_grey_true w c, cut_xyy_rgb_true_grey_true w c, cut_cieluv_rgb_true_grey_true w c, cut_lab_rgb_true_grey_true w c, cut_lch_ab_rgb_true_grey_true w c, cut_lch_uv_rgb_true_grey_true w c, by simp⟩

theorem cut_all (m : ColorType) (w : World) (c : Color) : ∀ p ∈ passes m, conv p.1 p.2 w c = (conv p.1 m w c >>= conv m p.2 w) := by
  cases m <;> first | exact cut_all_rgb_deep w c | exact cut_all_xyz w c | exact cut_all_lab w c | exact cut_all_cieluv w c | exact cut_all_rgb_true w c | simp [passes]

end Val
