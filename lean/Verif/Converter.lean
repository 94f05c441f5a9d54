import Verif.Leaf

/-!
# Conversions (ColorMagic/manipulation/color_converter.cpp)

The functions of `color_converter` as programs over the memory, under their C++ names.  Generated from the source text: the bodies of the
composed functions and of the dispatchers are transcribed one by one.  The elementary formulas are in `Verif/Leaf.lean`.
-/

open Outcome Prog

namespace Converter
variable [FloatModel]

/-- `static_cast<T*>(p)` followed by uses as a `T`: undefined unless the object is a `T`. -/
def cast (t : ColorType) (p : Ptr) : Prog Ptr := do
  let c ← load p
  if c.cls = t then pure p else lift ub

/-- color_converter.cpp:41-44 -/
noncomputable def rgb_true_to_rgb_deep (p : Ptr) : Prog Ptr := Prog.map (fun _ => Leaf.rgb_true_to_rgb_deep) p

/-- color_converter.cpp:46-50 -/
noncomputable def rgb_true_to_grey_true (p : Ptr) : Prog Ptr := Prog.map (fun _ => Leaf.rgb_true_to_grey_true) p

/-- color_converter.cpp:52-56 -/
noncomputable def rgb_true_to_grey_deep (p : Ptr) : Prog Ptr := do
  let q ← rgb_true_to_grey_true p
  let c ← load p
  let g ← load q
  let r ← lift (Leaf.grey_copy_to_deep c.space g)
  alloc r

/-- color_converter.cpp:113-116 -/
noncomputable def rgb_deep_to_rgb_true (p : Ptr) : Prog Ptr := Prog.map (fun _ => Leaf.rgb_deep_to_rgb_true) p

/-- color_converter.cpp:123-127 -/
noncomputable def rgb_deep_to_grey_deep (p : Ptr) : Prog Ptr := Prog.map (fun _ => Leaf.rgb_deep_to_grey_deep) p

/-- color_converter.cpp:129-136 -/
noncomputable def rgb_deep_to_cmyk (p : Ptr) : Prog Ptr := Prog.map (fun _ => Leaf.rgb_deep_to_cmyk) p

/-- color_converter.cpp:138-154 -/
noncomputable def rgb_deep_to_hsi (p : Ptr) : Prog Ptr := Prog.map (fun _ => Leaf.rgb_deep_to_hsi) p

/-- color_converter.cpp:156-172 -/
noncomputable def rgb_deep_to_hsv (p : Ptr) : Prog Ptr := Prog.map (fun _ => Leaf.rgb_deep_to_hsv) p

/-- color_converter.cpp:174-190 -/
noncomputable def rgb_deep_to_hsl (p : Ptr) : Prog Ptr := Prog.map (fun _ => Leaf.rgb_deep_to_hsl) p

/-- color_converter.cpp:192-212 -/
noncomputable def rgb_deep_to_hcy (p : Ptr) : Prog Ptr := Prog.map (fun _ => Leaf.rgb_deep_to_hcy) p

/-- color_converter.cpp:214-220 -/
noncomputable def rgb_deep_to_xyz (p : Ptr) : Prog Ptr := do
  let c ← load p
  let w ← world
  let d ← lift (Leaf.inverseGamma w c)
  store p d
  let r ← lift (Leaf.linear_to_xyz w d)
  alloc r

/-- color_converter.cpp:247-250 -/
noncomputable def grey_true_to_rgb_true (p : Ptr) : Prog Ptr := Prog.map (fun _ => Leaf.grey_true_to_rgb_true) p

/-- color_converter.cpp:252-255 -/
noncomputable def grey_true_to_rgb_deep (p : Ptr) : Prog Ptr := Prog.map (fun _ => Leaf.grey_true_to_rgb_deep) p

/-- color_converter.cpp:257-260 -/
noncomputable def grey_true_to_grey_deep (p : Ptr) : Prog Ptr := Prog.map (fun _ => Leaf.grey_true_to_grey_deep) p

/-- color_converter.cpp:317-320 -/
noncomputable def grey_deep_to_rgb_true (p : Ptr) : Prog Ptr := Prog.map (fun _ => Leaf.grey_deep_to_rgb_true) p

/-- color_converter.cpp:322-325 -/
noncomputable def grey_deep_to_rgb_deep (p : Ptr) : Prog Ptr := Prog.map (fun _ => Leaf.grey_deep_to_rgb_deep) p

/-- color_converter.cpp:327-330 -/
noncomputable def grey_deep_to_grey_true (p : Ptr) : Prog Ptr := Prog.map (fun _ => Leaf.grey_deep_to_grey_true) p

/-- color_converter.cpp:392-398 -/
noncomputable def cmyk_to_rgb_deep (p : Ptr) : Prog Ptr := Prog.map (fun _ => Leaf.cmyk_to_rgb_deep) p

/-- color_converter.cpp:465-487 -/
noncomputable def hsi_to_rgb_deep (p : Ptr) : Prog Ptr := Prog.map (fun _ => Leaf.hsi_to_rgb_deep) p

/-- color_converter.cpp:554-578 -/
noncomputable def hsv_to_rgb_deep (p : Ptr) : Prog Ptr := Prog.map (fun _ => Leaf.hsv_to_rgb_deep) p

/-- color_converter.cpp:601-608 -/
noncomputable def hsv_to_hsl (p : Ptr) : Prog Ptr := Prog.map (fun _ => Leaf.hsv_to_hsl) p

/-- color_converter.cpp:650-680 -/
noncomputable def hsl_to_rgb_deep (p : Ptr) : Prog Ptr := Prog.map (fun _ => Leaf.hsl_to_rgb_deep) p

/-- color_converter.cpp:702-709 -/
noncomputable def hsl_to_hsv (p : Ptr) : Prog Ptr := Prog.map (fun _ => Leaf.hsl_to_hsv) p

/-- color_converter.cpp:751-771 -/
noncomputable def hcy_to_rgb_deep (p : Ptr) : Prog Ptr := Prog.map (fun _ => Leaf.hcy_to_rgb_deep) p

/-- color_converter.cpp:838-848 -/
noncomputable def xyz_to_rgb_deep (p : Ptr) : Prog Ptr := Prog.map Leaf.xyz_to_rgb_deep p

/-- color_converter.cpp:885-897 -/
noncomputable def xyz_to_xyy (p : Ptr) : Prog Ptr := Prog.map Leaf.xyz_to_xyy p

/-- color_converter.cpp:899-920 -/
noncomputable def xyz_to_cieluv (p : Ptr) : Prog Ptr := Prog.map Leaf.xyz_to_cieluv p

/-- color_converter.cpp:922-935 -/
noncomputable def xyz_to_lab (p : Ptr) : Prog Ptr := Prog.map Leaf.xyz_to_lab p

/-- color_converter.cpp:992-1003 -/
noncomputable def xyy_to_xyz (p : Ptr) : Prog Ptr := Prog.map (fun _ => Leaf.xyy_to_xyz) p

/-- color_converter.cpp:1070-1091 -/
noncomputable def cieluv_to_xyz (p : Ptr) : Prog Ptr := Prog.map Leaf.cieluv_to_xyz p

/-- color_converter.cpp:1108-1118 -/
noncomputable def cieluv_to_lch_uv (p : Ptr) : Prog Ptr := Prog.map (fun _ => Leaf.cieluv_to_lch_uv) p

/-- color_converter.cpp:1165-1175 -/
noncomputable def lab_to_xyz (p : Ptr) : Prog Ptr := Prog.map Leaf.lab_to_xyz p

/-- color_converter.cpp:1187-1197 -/
noncomputable def lab_to_lch_ab (p : Ptr) : Prog Ptr := Prog.map (fun _ => Leaf.lab_to_lch_ab) p

/-- color_converter.cpp:1264-1273 -/
noncomputable def lch_ab_to_lab (p : Ptr) : Prog Ptr := Prog.map (fun _ => Leaf.lch_ab_to_lab) p

/-- color_converter.cpp:1335-1344 -/
noncomputable def lch_uv_to_cieluv (p : Ptr) : Prog Ptr := Prog.map (fun _ => Leaf.lch_uv_to_cieluv) p

/-- color_converter.cpp:58-61 -/
noncomputable def rgb_true_to_cmyk (p : Ptr) : Prog Ptr := do
  let q ← rgb_true_to_rgb_deep p
  rgb_deep_to_cmyk q

/-- color_converter.cpp:63-66 -/
noncomputable def rgb_true_to_hsi (p : Ptr) : Prog Ptr := do
  let q ← rgb_true_to_rgb_deep p
  rgb_deep_to_hsi q

/-- color_converter.cpp:68-71 -/
noncomputable def rgb_true_to_hsv (p : Ptr) : Prog Ptr := do
  let q ← rgb_true_to_rgb_deep p
  rgb_deep_to_hsv q

/-- color_converter.cpp:73-76 -/
noncomputable def rgb_true_to_hsl (p : Ptr) : Prog Ptr := do
  let q ← rgb_true_to_rgb_deep p
  rgb_deep_to_hsl q

/-- color_converter.cpp:78-81 -/
noncomputable def rgb_true_to_hcy (p : Ptr) : Prog Ptr := do
  let q ← rgb_true_to_rgb_deep p
  rgb_deep_to_hcy q

/-- color_converter.cpp:83-86 -/
noncomputable def rgb_true_to_xyz (p : Ptr) : Prog Ptr := do
  let q ← rgb_true_to_rgb_deep p
  rgb_deep_to_xyz q

/-- color_converter.cpp:88-91 -/
noncomputable def rgb_true_to_xyy (p : Ptr) : Prog Ptr := do
  let q ← rgb_true_to_xyz p
  xyz_to_xyy q

/-- color_converter.cpp:93-96 -/
noncomputable def rgb_true_to_cieluv (p : Ptr) : Prog Ptr := do
  let q ← rgb_true_to_xyz p
  xyz_to_cieluv q

/-- color_converter.cpp:232-235 -/
noncomputable def rgb_deep_to_lab (p : Ptr) : Prog Ptr := do
  let q ← rgb_deep_to_xyz p
  xyz_to_lab q

/-- color_converter.cpp:98-101 -/
noncomputable def rgb_true_to_lab (p : Ptr) : Prog Ptr := do
  let q ← rgb_true_to_rgb_deep p
  rgb_deep_to_lab q

/-- color_converter.cpp:103-106 -/
noncomputable def rgb_true_to_lch_ab (p : Ptr) : Prog Ptr := do
  let q ← rgb_true_to_lab p
  lab_to_lch_ab q

/-- color_converter.cpp:108-111 -/
noncomputable def rgb_true_to_lch_uv (p : Ptr) : Prog Ptr := do
  let q ← rgb_true_to_cieluv p
  cieluv_to_lch_uv q

/-- color_converter.cpp:118-121 -/
noncomputable def rgb_deep_to_grey_true (p : Ptr) : Prog Ptr := do
  let q ← rgb_deep_to_rgb_true p
  rgb_true_to_grey_true q

/-- color_converter.cpp:222-225 -/
noncomputable def rgb_deep_to_xyy (p : Ptr) : Prog Ptr := do
  let q ← rgb_deep_to_xyz p
  xyz_to_xyy q

/-- color_converter.cpp:227-230 -/
noncomputable def rgb_deep_to_cieluv (p : Ptr) : Prog Ptr := do
  let q ← rgb_deep_to_xyz p
  xyz_to_cieluv q

/-- color_converter.cpp:237-240 -/
noncomputable def rgb_deep_to_lch_ab (p : Ptr) : Prog Ptr := do
  let q ← rgb_deep_to_lab p
  lab_to_lch_ab q

/-- color_converter.cpp:242-245 -/
noncomputable def rgb_deep_to_lch_uv (p : Ptr) : Prog Ptr := do
  let q ← rgb_deep_to_cieluv p
  cieluv_to_lch_uv q

/-- color_converter.cpp:262-265 -/
noncomputable def grey_true_to_cmyk (p : Ptr) : Prog Ptr := do
  let q ← grey_true_to_rgb_deep p
  rgb_deep_to_cmyk q

/-- color_converter.cpp:267-270 -/
noncomputable def grey_true_to_hsi (p : Ptr) : Prog Ptr := do
  let q ← grey_true_to_rgb_deep p
  rgb_deep_to_hsi q

/-- color_converter.cpp:272-275 -/
noncomputable def grey_true_to_hsv (p : Ptr) : Prog Ptr := do
  let q ← grey_true_to_rgb_deep p
  rgb_deep_to_hsv q

/-- color_converter.cpp:277-280 -/
noncomputable def grey_true_to_hsl (p : Ptr) : Prog Ptr := do
  let q ← grey_true_to_rgb_deep p
  rgb_deep_to_hsl q

/-- color_converter.cpp:282-285 -/
noncomputable def grey_true_to_hcy (p : Ptr) : Prog Ptr := do
  let q ← grey_true_to_rgb_deep p
  rgb_deep_to_hcy q

/-- color_converter.cpp:287-290 -/
noncomputable def grey_true_to_xyz (p : Ptr) : Prog Ptr := do
  let q ← grey_true_to_rgb_deep p
  rgb_deep_to_xyz q

/-- color_converter.cpp:292-295 -/
noncomputable def grey_true_to_xyy (p : Ptr) : Prog Ptr := do
  let q ← grey_true_to_xyz p
  xyz_to_xyy q

/-- color_converter.cpp:297-300 -/
noncomputable def grey_true_to_cieluv (p : Ptr) : Prog Ptr := do
  let q ← grey_true_to_xyz p
  xyz_to_cieluv q

/-- color_converter.cpp:302-305 -/
noncomputable def grey_true_to_lab (p : Ptr) : Prog Ptr := do
  let q ← grey_true_to_rgb_deep p
  rgb_deep_to_lab q

/-- color_converter.cpp:307-310 -/
noncomputable def grey_true_to_lch_ab (p : Ptr) : Prog Ptr := do
  let q ← grey_true_to_lab p
  lab_to_lch_ab q

/-- color_converter.cpp:312-315 -/
noncomputable def grey_true_to_lch_uv (p : Ptr) : Prog Ptr := do
  let q ← grey_true_to_cieluv p
  cieluv_to_lch_uv q

/-- color_converter.cpp:332-335 -/
noncomputable def grey_deep_to_cmyk (p : Ptr) : Prog Ptr := do
  let q ← grey_deep_to_rgb_deep p
  rgb_deep_to_cmyk q

/-- color_converter.cpp:337-340 -/
noncomputable def grey_deep_to_hsi (p : Ptr) : Prog Ptr := do
  let q ← grey_deep_to_rgb_deep p
  rgb_deep_to_hsi q

/-- color_converter.cpp:342-345 -/
noncomputable def grey_deep_to_hsv (p : Ptr) : Prog Ptr := do
  let q ← grey_deep_to_rgb_deep p
  rgb_deep_to_hsv q

/-- color_converter.cpp:347-350 -/
noncomputable def grey_deep_to_hsl (p : Ptr) : Prog Ptr := do
  let q ← grey_deep_to_rgb_deep p
  rgb_deep_to_hsl q

/-- color_converter.cpp:352-355 -/
noncomputable def grey_deep_to_hcy (p : Ptr) : Prog Ptr := do
  let q ← grey_deep_to_rgb_deep p
  rgb_deep_to_hcy q

/-- color_converter.cpp:357-360 -/
noncomputable def grey_deep_to_xyz (p : Ptr) : Prog Ptr := do
  let q ← grey_deep_to_rgb_deep p
  rgb_deep_to_xyz q

/-- color_converter.cpp:362-365 -/
noncomputable def grey_deep_to_xyy (p : Ptr) : Prog Ptr := do
  let q ← grey_deep_to_xyz p
  xyz_to_xyy q

/-- color_converter.cpp:367-370 -/
noncomputable def grey_deep_to_cieluv (p : Ptr) : Prog Ptr := do
  let q ← grey_deep_to_xyz p
  xyz_to_cieluv q

/-- color_converter.cpp:372-375 -/
noncomputable def grey_deep_to_lab (p : Ptr) : Prog Ptr := do
  let q ← grey_deep_to_rgb_deep p
  rgb_deep_to_lab q

/-- color_converter.cpp:377-380 -/
noncomputable def grey_deep_to_lch_ab (p : Ptr) : Prog Ptr := do
  let q ← grey_deep_to_lab p
  lab_to_lch_ab q

/-- color_converter.cpp:382-385 -/
noncomputable def grey_deep_to_lch_uv (p : Ptr) : Prog Ptr := do
  let q ← grey_deep_to_cieluv p
  cieluv_to_lch_uv q

/-- color_converter.cpp:387-390 -/
noncomputable def cmyk_to_rgb_true (p : Ptr) : Prog Ptr := do
  let q ← cmyk_to_rgb_deep p
  rgb_deep_to_rgb_true q

/-- color_converter.cpp:400-403 -/
noncomputable def cmyk_to_grey_true (p : Ptr) : Prog Ptr := do
  let q ← cmyk_to_rgb_deep p
  rgb_deep_to_grey_true q

/-- color_converter.cpp:405-408 -/
noncomputable def cmyk_to_grey_deep (p : Ptr) : Prog Ptr := do
  let q ← cmyk_to_rgb_deep p
  rgb_deep_to_grey_deep q

/-- color_converter.cpp:410-413 -/
noncomputable def cmyk_to_hsi (p : Ptr) : Prog Ptr := do
  let q ← cmyk_to_rgb_deep p
  rgb_deep_to_hsi q

/-- color_converter.cpp:415-418 -/
noncomputable def cmyk_to_hsv (p : Ptr) : Prog Ptr := do
  let q ← cmyk_to_rgb_deep p
  rgb_deep_to_hsv q

/-- color_converter.cpp:420-423 -/
noncomputable def cmyk_to_hsl (p : Ptr) : Prog Ptr := do
  let q ← cmyk_to_rgb_deep p
  rgb_deep_to_hsl q

/-- color_converter.cpp:425-428 -/
noncomputable def cmyk_to_hcy (p : Ptr) : Prog Ptr := do
  let q ← cmyk_to_rgb_deep p
  rgb_deep_to_hcy q

/-- color_converter.cpp:430-433 -/
noncomputable def cmyk_to_xyz (p : Ptr) : Prog Ptr := do
  let q ← cmyk_to_rgb_deep p
  rgb_deep_to_xyz q

/-- color_converter.cpp:435-438 -/
noncomputable def cmyk_to_xyy (p : Ptr) : Prog Ptr := do
  let q ← cmyk_to_xyz p
  xyz_to_xyy q

/-- color_converter.cpp:440-443 -/
noncomputable def cmyk_to_cieluv (p : Ptr) : Prog Ptr := do
  let q ← cmyk_to_xyz p
  xyz_to_cieluv q

/-- color_converter.cpp:445-448 -/
noncomputable def cmyk_to_lab (p : Ptr) : Prog Ptr := do
  let q ← cmyk_to_rgb_deep p
  rgb_deep_to_lab q

/-- color_converter.cpp:450-453 -/
noncomputable def cmyk_to_lch_ab (p : Ptr) : Prog Ptr := do
  let q ← cmyk_to_lab p
  lab_to_lch_ab q

/-- color_converter.cpp:455-458 -/
noncomputable def cmyk_to_lch_uv (p : Ptr) : Prog Ptr := do
  let q ← cmyk_to_cieluv p
  cieluv_to_lch_uv q

/-- color_converter.cpp:460-463 -/
noncomputable def hsi_to_rgb_true (p : Ptr) : Prog Ptr := do
  let q ← hsi_to_rgb_deep p
  rgb_deep_to_rgb_true q

/-- color_converter.cpp:489-492 -/
noncomputable def hsi_to_grey_true (p : Ptr) : Prog Ptr := do
  let q ← hsi_to_rgb_deep p
  rgb_deep_to_grey_true q

/-- color_converter.cpp:494-497 -/
noncomputable def hsi_to_grey_deep (p : Ptr) : Prog Ptr := do
  let q ← hsi_to_rgb_deep p
  rgb_deep_to_grey_deep q

/-- color_converter.cpp:499-502 -/
noncomputable def hsi_to_cmyk (p : Ptr) : Prog Ptr := do
  let q ← hsi_to_rgb_deep p
  rgb_deep_to_cmyk q

/-- color_converter.cpp:504-507 -/
noncomputable def hsi_to_hsv (p : Ptr) : Prog Ptr := do
  let q ← hsi_to_rgb_deep p
  rgb_deep_to_hsv q

/-- color_converter.cpp:509-512 -/
noncomputable def hsi_to_hsl (p : Ptr) : Prog Ptr := do
  let q ← hsi_to_rgb_deep p
  rgb_deep_to_hsl q

/-- color_converter.cpp:514-517 -/
noncomputable def hsi_to_hcy (p : Ptr) : Prog Ptr := do
  let q ← hsi_to_rgb_deep p
  rgb_deep_to_hcy q

/-- color_converter.cpp:519-522 -/
noncomputable def hsi_to_xyz (p : Ptr) : Prog Ptr := do
  let q ← hsi_to_rgb_deep p
  rgb_deep_to_xyz q

/-- color_converter.cpp:524-527 -/
noncomputable def hsi_to_xyy (p : Ptr) : Prog Ptr := do
  let q ← hsi_to_rgb_deep p
  rgb_deep_to_xyy q

/-- color_converter.cpp:529-532 -/
noncomputable def hsi_to_cieluv (p : Ptr) : Prog Ptr := do
  let q ← hsi_to_rgb_deep p
  rgb_deep_to_cieluv q

/-- color_converter.cpp:534-537 -/
noncomputable def hsi_to_lab (p : Ptr) : Prog Ptr := do
  let q ← hsi_to_rgb_deep p
  rgb_deep_to_lab q

/-- color_converter.cpp:539-542 -/
noncomputable def hsi_to_lch_ab (p : Ptr) : Prog Ptr := do
  let q ← hsi_to_rgb_deep p
  rgb_deep_to_lch_ab q

/-- color_converter.cpp:544-547 -/
noncomputable def hsi_to_lch_uv (p : Ptr) : Prog Ptr := do
  let q ← hsi_to_rgb_deep p
  rgb_deep_to_lch_uv q

/-- color_converter.cpp:549-552 -/
noncomputable def hsv_to_rgb_true (p : Ptr) : Prog Ptr := do
  let q ← hsv_to_rgb_deep p
  rgb_deep_to_rgb_true q

/-- color_converter.cpp:580-583 -/
noncomputable def hsv_to_grey_true (p : Ptr) : Prog Ptr := do
  let q ← hsv_to_rgb_deep p
  rgb_deep_to_grey_true q

/-- color_converter.cpp:585-588 -/
noncomputable def hsv_to_grey_deep (p : Ptr) : Prog Ptr := do
  let q ← hsv_to_rgb_deep p
  rgb_deep_to_grey_deep q

/-- color_converter.cpp:590-593 -/
noncomputable def hsv_to_cmyk (p : Ptr) : Prog Ptr := do
  let q ← hsv_to_rgb_deep p
  rgb_deep_to_cmyk q

/-- color_converter.cpp:595-599 -/
noncomputable def hsv_to_hsi (p : Ptr) : Prog Ptr := do
  let q ← hsv_to_rgb_deep p
  rgb_deep_to_hsi q

/-- color_converter.cpp:610-613 -/
noncomputable def hsv_to_hcy (p : Ptr) : Prog Ptr := do
  let q ← hsv_to_rgb_deep p
  rgb_deep_to_hcy q

/-- color_converter.cpp:615-618 -/
noncomputable def hsv_to_xyz (p : Ptr) : Prog Ptr := do
  let q ← hsv_to_rgb_deep p
  rgb_deep_to_xyz q

/-- color_converter.cpp:620-623 -/
noncomputable def hsv_to_xyy (p : Ptr) : Prog Ptr := do
  let q ← hsv_to_xyz p
  xyz_to_xyy q

/-- color_converter.cpp:625-628 -/
noncomputable def hsv_to_cieluv (p : Ptr) : Prog Ptr := do
  let q ← hsv_to_xyz p
  xyz_to_cieluv q

/-- color_converter.cpp:630-633 -/
noncomputable def hsv_to_lab (p : Ptr) : Prog Ptr := do
  let q ← hsv_to_rgb_deep p
  rgb_deep_to_lab q

/-- color_converter.cpp:635-638 -/
noncomputable def hsv_to_lch_ab (p : Ptr) : Prog Ptr := do
  let q ← hsv_to_lab p
  lab_to_lch_ab q

/-- color_converter.cpp:640-643 -/
noncomputable def hsv_to_lch_uv (p : Ptr) : Prog Ptr := do
  let q ← hsv_to_cieluv p
  cieluv_to_lch_uv q

/-- color_converter.cpp:645-648 -/
noncomputable def hsl_to_rgb_true (p : Ptr) : Prog Ptr := do
  let q ← hsl_to_rgb_deep p
  rgb_deep_to_rgb_true q

/-- color_converter.cpp:682-685 -/
noncomputable def hsl_to_grey_true (p : Ptr) : Prog Ptr := do
  let q ← hsl_to_rgb_deep p
  rgb_deep_to_grey_true q

/-- color_converter.cpp:687-690 -/
noncomputable def hsl_to_grey_deep (p : Ptr) : Prog Ptr := do
  let q ← hsl_to_rgb_deep p
  rgb_deep_to_grey_deep q

/-- color_converter.cpp:692-695 -/
noncomputable def hsl_to_cmyk (p : Ptr) : Prog Ptr := do
  let q ← hsl_to_rgb_deep p
  rgb_deep_to_cmyk q

/-- color_converter.cpp:697-700 -/
noncomputable def hsl_to_hsi (p : Ptr) : Prog Ptr := do
  let q ← hsl_to_rgb_deep p
  rgb_deep_to_hsi q

/-- color_converter.cpp:711-714 -/
noncomputable def hsl_to_hcy (p : Ptr) : Prog Ptr := do
  let q ← hsl_to_rgb_deep p
  rgb_deep_to_hcy q

/-- color_converter.cpp:716-719 -/
noncomputable def hsl_to_xyz (p : Ptr) : Prog Ptr := do
  let q ← hsl_to_rgb_deep p
  rgb_deep_to_xyz q

/-- color_converter.cpp:721-724 -/
noncomputable def hsl_to_xyy (p : Ptr) : Prog Ptr := do
  let q ← hsl_to_xyz p
  xyz_to_xyy q

/-- color_converter.cpp:726-729 -/
noncomputable def hsl_to_cieluv (p : Ptr) : Prog Ptr := do
  let q ← hsl_to_xyz p
  xyz_to_cieluv q

/-- color_converter.cpp:731-734 -/
noncomputable def hsl_to_lab (p : Ptr) : Prog Ptr := do
  let q ← hsl_to_rgb_deep p
  rgb_deep_to_lab q

/-- color_converter.cpp:736-739 -/
noncomputable def hsl_to_lch_ab (p : Ptr) : Prog Ptr := do
  let q ← hsl_to_lab p
  lab_to_lch_ab q

/-- color_converter.cpp:741-744 -/
noncomputable def hsl_to_lch_uv (p : Ptr) : Prog Ptr := do
  let q ← hsl_to_cieluv p
  cieluv_to_lch_uv q

/-- color_converter.cpp:746-749 -/
noncomputable def hcy_to_rgb_true (p : Ptr) : Prog Ptr := do
  let q ← hcy_to_rgb_deep p
  rgb_deep_to_rgb_true q

/-- color_converter.cpp:773-776 -/
noncomputable def hcy_to_grey_true (p : Ptr) : Prog Ptr := do
  let q ← hcy_to_rgb_deep p
  rgb_deep_to_grey_true q

/-- color_converter.cpp:778-781 -/
noncomputable def hcy_to_grey_deep (p : Ptr) : Prog Ptr := do
  let q ← hcy_to_rgb_deep p
  rgb_deep_to_grey_deep q

/-- color_converter.cpp:783-786 -/
noncomputable def hcy_to_cmyk (p : Ptr) : Prog Ptr := do
  let q ← hcy_to_rgb_deep p
  rgb_deep_to_cmyk q

/-- color_converter.cpp:788-791 -/
noncomputable def hcy_to_hsi (p : Ptr) : Prog Ptr := do
  let q ← hcy_to_rgb_deep p
  rgb_deep_to_hsi q

/-- color_converter.cpp:793-796 -/
noncomputable def hcy_to_hsv (p : Ptr) : Prog Ptr := do
  let q ← hcy_to_rgb_deep p
  rgb_deep_to_hsv q

/-- color_converter.cpp:798-801 -/
noncomputable def hcy_to_hsl (p : Ptr) : Prog Ptr := do
  let q ← hcy_to_rgb_deep p
  rgb_deep_to_hsl q

/-- color_converter.cpp:803-806 -/
noncomputable def hcy_to_xyz (p : Ptr) : Prog Ptr := do
  let q ← hcy_to_rgb_deep p
  rgb_deep_to_xyz q

/-- color_converter.cpp:808-811 -/
noncomputable def hcy_to_xyy (p : Ptr) : Prog Ptr := do
  let q ← hcy_to_rgb_deep p
  rgb_deep_to_xyy q

/-- color_converter.cpp:813-816 -/
noncomputable def hcy_to_cieluv (p : Ptr) : Prog Ptr := do
  let q ← hcy_to_rgb_deep p
  rgb_deep_to_cieluv q

/-- color_converter.cpp:818-821 -/
noncomputable def hcy_to_lab (p : Ptr) : Prog Ptr := do
  let q ← hcy_to_rgb_deep p
  rgb_deep_to_lab q

/-- color_converter.cpp:823-826 -/
noncomputable def hcy_to_lch_ab (p : Ptr) : Prog Ptr := do
  let q ← hcy_to_rgb_deep p
  rgb_deep_to_lch_ab q

/-- color_converter.cpp:828-831 -/
noncomputable def hcy_to_lch_uv (p : Ptr) : Prog Ptr := do
  let q ← hcy_to_rgb_deep p
  rgb_deep_to_lch_uv q

/-- color_converter.cpp:833-836 -/
noncomputable def xyz_to_rgb_true (p : Ptr) : Prog Ptr := do
  let q ← xyz_to_rgb_deep p
  rgb_deep_to_rgb_true q

/-- color_converter.cpp:850-853 -/
noncomputable def xyz_to_grey_true (p : Ptr) : Prog Ptr := do
  let q ← xyz_to_rgb_deep p
  rgb_deep_to_grey_true q

/-- color_converter.cpp:855-858 -/
noncomputable def xyz_to_grey_deep (p : Ptr) : Prog Ptr := do
  let q ← xyz_to_rgb_deep p
  rgb_deep_to_grey_deep q

/-- color_converter.cpp:860-863 -/
noncomputable def xyz_to_cmyk (p : Ptr) : Prog Ptr := do
  let q ← xyz_to_rgb_deep p
  rgb_deep_to_cmyk q

/-- color_converter.cpp:865-868 -/
noncomputable def xyz_to_hsi (p : Ptr) : Prog Ptr := do
  let q ← xyz_to_rgb_deep p
  rgb_deep_to_hsi q

/-- color_converter.cpp:870-873 -/
noncomputable def xyz_to_hsv (p : Ptr) : Prog Ptr := do
  let q ← xyz_to_rgb_deep p
  rgb_deep_to_hsv q

/-- color_converter.cpp:875-878 -/
noncomputable def xyz_to_hsl (p : Ptr) : Prog Ptr := do
  let q ← xyz_to_rgb_deep p
  rgb_deep_to_hsl q

/-- color_converter.cpp:880-883 -/
noncomputable def xyz_to_hcy (p : Ptr) : Prog Ptr := do
  let q ← xyz_to_rgb_deep p
  rgb_deep_to_hcy q

/-- color_converter.cpp:937-940 -/
noncomputable def xyz_to_lch_ab (p : Ptr) : Prog Ptr := do
  let q ← xyz_to_lab p
  lab_to_lch_ab q

/-- color_converter.cpp:942-945 -/
noncomputable def xyz_to_lch_uv (p : Ptr) : Prog Ptr := do
  let q ← xyz_to_cieluv p
  cieluv_to_lch_uv q

/-- color_converter.cpp:947-950 -/
noncomputable def xyy_to_rgb_true (p : Ptr) : Prog Ptr := do
  let q ← xyy_to_xyz p
  xyz_to_rgb_true q

/-- color_converter.cpp:952-955 -/
noncomputable def xyy_to_rgb_deep (p : Ptr) : Prog Ptr := do
  let q ← xyy_to_xyz p
  xyz_to_rgb_deep q

/-- color_converter.cpp:957-960 -/
noncomputable def xyy_to_grey_true (p : Ptr) : Prog Ptr := do
  let q ← xyy_to_xyz p
  xyz_to_grey_true q

/-- color_converter.cpp:962-965 -/
noncomputable def xyy_to_grey_deep (p : Ptr) : Prog Ptr := do
  let q ← xyy_to_xyz p
  xyz_to_grey_deep q

/-- color_converter.cpp:967-970 -/
noncomputable def xyy_to_cmyk (p : Ptr) : Prog Ptr := do
  let q ← xyy_to_xyz p
  xyz_to_cmyk q

/-- color_converter.cpp:972-975 -/
noncomputable def xyy_to_hsi (p : Ptr) : Prog Ptr := do
  let q ← xyy_to_xyz p
  xyz_to_hsi q

/-- color_converter.cpp:977-980 -/
noncomputable def xyy_to_hsv (p : Ptr) : Prog Ptr := do
  let q ← xyy_to_xyz p
  xyz_to_hsv q

/-- color_converter.cpp:982-985 -/
noncomputable def xyy_to_hsl (p : Ptr) : Prog Ptr := do
  let q ← xyy_to_xyz p
  xyz_to_hsl q

/-- color_converter.cpp:987-990 -/
noncomputable def xyy_to_hcy (p : Ptr) : Prog Ptr := do
  let q ← xyy_to_xyz p
  xyz_to_hcy q

/-- color_converter.cpp:1005-1008 -/
noncomputable def xyy_to_cieluv (p : Ptr) : Prog Ptr := do
  let q ← xyy_to_xyz p
  xyz_to_cieluv q

/-- color_converter.cpp:1010-1013 -/
noncomputable def xyy_to_lab (p : Ptr) : Prog Ptr := do
  let q ← xyy_to_xyz p
  xyz_to_lab q

/-- color_converter.cpp:1015-1018 -/
noncomputable def xyy_to_lch_ab (p : Ptr) : Prog Ptr := do
  let q ← xyy_to_lab p
  lab_to_lch_ab q

/-- color_converter.cpp:1020-1023 -/
noncomputable def xyy_to_lch_uv (p : Ptr) : Prog Ptr := do
  let q ← xyy_to_cieluv p
  cieluv_to_lch_uv q

/-- color_converter.cpp:1025-1028 -/
noncomputable def cieluv_to_rgb_true (p : Ptr) : Prog Ptr := do
  let q ← cieluv_to_xyz p
  xyz_to_rgb_true q

/-- color_converter.cpp:1030-1033 -/
noncomputable def cieluv_to_rgb_deep (p : Ptr) : Prog Ptr := do
  let q ← cieluv_to_xyz p
  xyz_to_rgb_deep q

/-- color_converter.cpp:1035-1038 -/
noncomputable def cieluv_to_grey_true (p : Ptr) : Prog Ptr := do
  let q ← cieluv_to_xyz p
  xyz_to_grey_true q

/-- color_converter.cpp:1040-1043 -/
noncomputable def cieluv_to_grey_deep (p : Ptr) : Prog Ptr := do
  let q ← cieluv_to_xyz p
  xyz_to_grey_deep q

/-- color_converter.cpp:1045-1048 -/
noncomputable def cieluv_to_cmyk (p : Ptr) : Prog Ptr := do
  let q ← cieluv_to_xyz p
  xyz_to_cmyk q

/-- color_converter.cpp:1050-1053 -/
noncomputable def cieluv_to_hsi (p : Ptr) : Prog Ptr := do
  let q ← cieluv_to_xyz p
  xyz_to_hsi q

/-- color_converter.cpp:1055-1058 -/
noncomputable def cieluv_to_hsv (p : Ptr) : Prog Ptr := do
  let q ← cieluv_to_xyz p
  xyz_to_hsv q

/-- color_converter.cpp:1060-1063 -/
noncomputable def cieluv_to_hsl (p : Ptr) : Prog Ptr := do
  let q ← cieluv_to_xyz p
  xyz_to_hsl q

/-- color_converter.cpp:1065-1068 -/
noncomputable def cieluv_to_hcy (p : Ptr) : Prog Ptr := do
  let q ← cieluv_to_xyz p
  xyz_to_hcy q

/-- color_converter.cpp:1093-1096 -/
noncomputable def cieluv_to_xyy (p : Ptr) : Prog Ptr := do
  let q ← cieluv_to_xyz p
  xyz_to_xyy q

/-- color_converter.cpp:1098-1101 -/
noncomputable def cieluv_to_lab (p : Ptr) : Prog Ptr := do
  let q ← cieluv_to_xyz p
  xyz_to_lab q

/-- color_converter.cpp:1103-1106 -/
noncomputable def cieluv_to_lch_ab (p : Ptr) : Prog Ptr := do
  let q ← cieluv_to_lab p
  lab_to_lch_ab q

/-- color_converter.cpp:1120-1123 -/
noncomputable def lab_to_rgb_true (p : Ptr) : Prog Ptr := do
  let q ← lab_to_xyz p
  xyz_to_rgb_true q

/-- color_converter.cpp:1125-1128 -/
noncomputable def lab_to_rgb_deep (p : Ptr) : Prog Ptr := do
  let q ← lab_to_xyz p
  xyz_to_rgb_deep q

/-- color_converter.cpp:1130-1133 -/
noncomputable def lab_to_grey_true (p : Ptr) : Prog Ptr := do
  let q ← lab_to_xyz p
  xyz_to_grey_true q

/-- color_converter.cpp:1135-1138 -/
noncomputable def lab_to_grey_deep (p : Ptr) : Prog Ptr := do
  let q ← lab_to_xyz p
  xyz_to_grey_deep q

/-- color_converter.cpp:1140-1143 -/
noncomputable def lab_to_cmyk (p : Ptr) : Prog Ptr := do
  let q ← lab_to_xyz p
  xyz_to_cmyk q

/-- color_converter.cpp:1145-1148 -/
noncomputable def lab_to_hsi (p : Ptr) : Prog Ptr := do
  let q ← lab_to_xyz p
  xyz_to_hsi q

/-- color_converter.cpp:1150-1153 -/
noncomputable def lab_to_hsv (p : Ptr) : Prog Ptr := do
  let q ← lab_to_xyz p
  xyz_to_hsv q

/-- color_converter.cpp:1155-1158 -/
noncomputable def lab_to_hsl (p : Ptr) : Prog Ptr := do
  let q ← lab_to_xyz p
  xyz_to_hsl q

/-- color_converter.cpp:1160-1163 -/
noncomputable def lab_to_hcy (p : Ptr) : Prog Ptr := do
  let q ← lab_to_xyz p
  xyz_to_hcy q

/-- color_converter.cpp:1182-1185 -/
noncomputable def lab_to_xyy (p : Ptr) : Prog Ptr := do
  let q ← lab_to_xyz p
  xyz_to_xyy q

/-- color_converter.cpp:1177-1180 -/
noncomputable def lab_to_cieluv (p : Ptr) : Prog Ptr := do
  let q ← lab_to_xyz p
  xyz_to_cieluv q

/-- color_converter.cpp:1199-1202 -/
noncomputable def lab_to_lch_uv (p : Ptr) : Prog Ptr := do
  let q ← lab_to_cieluv p
  cieluv_to_lch_uv q

/-- color_converter.cpp:1204-1207 -/
noncomputable def lch_ab_to_rgb_true (p : Ptr) : Prog Ptr := do
  let q ← lch_ab_to_lab p
  lab_to_rgb_true q

/-- color_converter.cpp:1209-1212 -/
noncomputable def lch_ab_to_rgb_deep (p : Ptr) : Prog Ptr := do
  let q ← lch_ab_to_lab p
  lab_to_rgb_deep q

/-- color_converter.cpp:1214-1217 -/
noncomputable def lch_ab_to_grey_true (p : Ptr) : Prog Ptr := do
  let q ← lch_ab_to_lab p
  lab_to_grey_true q

/-- color_converter.cpp:1219-1222 -/
noncomputable def lch_ab_to_grey_deep (p : Ptr) : Prog Ptr := do
  let q ← lch_ab_to_lab p
  lab_to_grey_deep q

/-- color_converter.cpp:1224-1227 -/
noncomputable def lch_ab_to_cmyk (p : Ptr) : Prog Ptr := do
  let q ← lch_ab_to_lab p
  lab_to_cmyk q

/-- color_converter.cpp:1229-1232 -/
noncomputable def lch_ab_to_hsi (p : Ptr) : Prog Ptr := do
  let q ← lch_ab_to_lab p
  lab_to_hsi q

/-- color_converter.cpp:1234-1237 -/
noncomputable def lch_ab_to_hsv (p : Ptr) : Prog Ptr := do
  let q ← lch_ab_to_lab p
  lab_to_hsv q

/-- color_converter.cpp:1239-1242 -/
noncomputable def lch_ab_to_hsl (p : Ptr) : Prog Ptr := do
  let q ← lch_ab_to_lab p
  lab_to_hsl q

/-- color_converter.cpp:1244-1247 -/
noncomputable def lch_ab_to_hcy (p : Ptr) : Prog Ptr := do
  let q ← lch_ab_to_lab p
  lab_to_hcy q

/-- color_converter.cpp:1249-1252 -/
noncomputable def lch_ab_to_xyz (p : Ptr) : Prog Ptr := do
  let q ← lch_ab_to_lab p
  lab_to_xyz q

/-- color_converter.cpp:1254-1257 -/
noncomputable def lch_ab_to_xyy (p : Ptr) : Prog Ptr := do
  let q ← lch_ab_to_lab p
  lab_to_xyy q

/-- color_converter.cpp:1259-1262 -/
noncomputable def lch_ab_to_cieluv (p : Ptr) : Prog Ptr := do
  let q ← lch_ab_to_lab p
  lab_to_cieluv q

/-- color_converter.cpp:1275-1278 -/
noncomputable def lch_ab_to_lch_uv (p : Ptr) : Prog Ptr := do
  let q ← lch_ab_to_cieluv p
  cieluv_to_lch_uv q

/-- color_converter.cpp:1280-1283 -/
noncomputable def lch_uv_to_rgb_true (p : Ptr) : Prog Ptr := do
  let q ← lch_uv_to_cieluv p
  cieluv_to_rgb_true q

/-- color_converter.cpp:1285-1288 -/
noncomputable def lch_uv_to_rgb_deep (p : Ptr) : Prog Ptr := do
  let q ← lch_uv_to_cieluv p
  cieluv_to_rgb_deep q

/-- color_converter.cpp:1290-1293 -/
noncomputable def lch_uv_to_grey_true (p : Ptr) : Prog Ptr := do
  let q ← lch_uv_to_cieluv p
  cieluv_to_grey_true q

/-- color_converter.cpp:1295-1298 -/
noncomputable def lch_uv_to_grey_deep (p : Ptr) : Prog Ptr := do
  let q ← lch_uv_to_cieluv p
  cieluv_to_grey_deep q

/-- color_converter.cpp:1300-1303 -/
noncomputable def lch_uv_to_cmyk (p : Ptr) : Prog Ptr := do
  let q ← lch_uv_to_cieluv p
  cieluv_to_cmyk q

/-- color_converter.cpp:1305-1308 -/
noncomputable def lch_uv_to_hsi (p : Ptr) : Prog Ptr := do
  let q ← lch_uv_to_cieluv p
  cieluv_to_hsi q

/-- color_converter.cpp:1310-1313 -/
noncomputable def lch_uv_to_hsv (p : Ptr) : Prog Ptr := do
  let q ← lch_uv_to_cieluv p
  cieluv_to_hsv q

/-- color_converter.cpp:1315-1318 -/
noncomputable def lch_uv_to_hsl (p : Ptr) : Prog Ptr := do
  let q ← lch_uv_to_cieluv p
  cieluv_to_hsl q

/-- color_converter.cpp:1320-1323 -/
noncomputable def lch_uv_to_hcy (p : Ptr) : Prog Ptr := do
  let q ← lch_uv_to_cieluv p
  cieluv_to_hcy q

/-- color_converter.cpp:1325-1328 -/
noncomputable def lch_uv_to_xyz (p : Ptr) : Prog Ptr := do
  let q ← lch_uv_to_cieluv p
  cieluv_to_xyz q

/-- color_converter.cpp:1330-1333 -/
noncomputable def lch_uv_to_xyy (p : Ptr) : Prog Ptr := do
  let q ← lch_uv_to_cieluv p
  cieluv_to_xyy q

/-- color_converter.cpp:1346-1349 -/
noncomputable def lch_uv_to_lab (p : Ptr) : Prog Ptr := do
  let q ← lch_uv_to_cieluv p
  cieluv_to_lab q

/-- color_converter.cpp:1351-1354 -/
noncomputable def lch_uv_to_lch_ab (p : Ptr) : Prog Ptr := do
  let q ← lch_uv_to_cieluv p
  cieluv_to_lch_ab q

/-- color_converter.cpp:1462-1499 -/
noncomputable def to_rgb_true (p : Ptr) : Prog Ptr := do
  let c ← load p
  match c.ctype with
  | .rgbTrue => cast .rgbTrue p
  | .rgbDeep => do rgb_deep_to_rgb_true (← cast .rgbDeep p)
  | .greyTrue => do grey_true_to_rgb_true (← cast .greyTrue p)
  | .greyDeep => do grey_deep_to_rgb_true (← cast .greyDeep p)
  | .cmyk => do cmyk_to_rgb_true (← cast .cmyk p)
  | .hsi => do hsi_to_rgb_true (← cast .hsi p)
  | .hsv => do hsv_to_rgb_true (← cast .hsv p)
  | .hsl => do hsl_to_rgb_true (← cast .hsl p)
  | .hcy => do hcy_to_rgb_true (← cast .hcy p)
  | .xyz => do xyz_to_rgb_true (← cast .xyz p)
  | .xyy => do xyy_to_rgb_true (← cast .xyy p)
  | .cieluv => do cieluv_to_rgb_true (← cast .cieluv p)
  | .lab => do lab_to_rgb_true (← cast .lab p)
  | .lchAb => do lch_ab_to_rgb_true (← cast .lchAb p)
  | .lchUv => do lch_uv_to_rgb_true (← cast .lchUv p)
  | .undefined => pure none

/-- color_converter.cpp:1501-1538 -/
noncomputable def to_rgb_deep (p : Ptr) : Prog Ptr := do
  let c ← load p
  match c.ctype with
  | .rgbTrue => do rgb_true_to_rgb_deep (← cast .rgbTrue p)
  | .rgbDeep => cast .rgbDeep p
  | .greyTrue => do grey_true_to_rgb_deep (← cast .greyTrue p)
  | .greyDeep => do grey_deep_to_rgb_deep (← cast .greyDeep p)
  | .cmyk => do cmyk_to_rgb_deep (← cast .cmyk p)
  | .hsi => do hsi_to_rgb_deep (← cast .hsi p)
  | .hsv => do hsv_to_rgb_deep (← cast .hsv p)
  | .hsl => do hsl_to_rgb_deep (← cast .hsl p)
  | .hcy => do hcy_to_rgb_deep (← cast .hcy p)
  | .xyz => do xyz_to_rgb_deep (← cast .xyz p)
  | .xyy => do xyy_to_rgb_deep (← cast .xyy p)
  | .cieluv => do cieluv_to_rgb_deep (← cast .cieluv p)
  | .lab => do lab_to_rgb_deep (← cast .lab p)
  | .lchAb => do lch_ab_to_rgb_deep (← cast .lchAb p)
  | .lchUv => do lch_uv_to_rgb_deep (← cast .lchUv p)
  | .undefined => pure none

/-- color_converter.cpp:1540-1577 -/
noncomputable def to_grey_true (p : Ptr) : Prog Ptr := do
  let c ← load p
  match c.ctype with
  | .rgbTrue => do rgb_true_to_grey_true (← cast .rgbTrue p)
  | .rgbDeep => do rgb_deep_to_grey_true (← cast .rgbDeep p)
  | .greyTrue => cast .greyTrue p
  | .greyDeep => do grey_deep_to_grey_true (← cast .greyDeep p)
  | .cmyk => do cmyk_to_grey_true (← cast .cmyk p)
  | .hsi => do hsi_to_grey_true (← cast .hsi p)
  | .hsv => do hsv_to_grey_true (← cast .hsv p)
  | .hsl => do hsl_to_grey_true (← cast .hsl p)
  | .hcy => do hcy_to_grey_true (← cast .hcy p)
  | .xyz => do xyz_to_grey_true (← cast .xyz p)
  | .xyy => do xyy_to_grey_true (← cast .xyy p)
  | .cieluv => do cieluv_to_grey_true (← cast .cieluv p)
  | .lab => do lab_to_grey_true (← cast .lab p)
  | .lchAb => do lch_ab_to_grey_true (← cast .lchAb p)
  | .lchUv => do lch_uv_to_grey_true (← cast .lchUv p)
  | .undefined => pure none

/-- color_converter.cpp:1579-1616 -/
noncomputable def to_grey_deep (p : Ptr) : Prog Ptr := do
  let c ← load p
  match c.ctype with
  | .rgbTrue => do rgb_true_to_grey_deep (← cast .rgbTrue p)
  | .rgbDeep => do rgb_deep_to_grey_deep (← cast .rgbDeep p)
  | .greyTrue => do grey_true_to_grey_deep (← cast .greyTrue p)
  | .greyDeep => cast .greyDeep p
  | .cmyk => do cmyk_to_grey_deep (← cast .cmyk p)
  | .hsi => do hsi_to_grey_deep (← cast .hsi p)
  | .hsv => do hsv_to_grey_deep (← cast .hsv p)
  | .hsl => do hsl_to_grey_deep (← cast .hsl p)
  | .hcy => do hcy_to_grey_deep (← cast .hcy p)
  | .xyz => do xyz_to_grey_deep (← cast .xyz p)
  | .xyy => do xyy_to_grey_deep (← cast .xyy p)
  | .cieluv => do cieluv_to_grey_deep (← cast .cieluv p)
  | .lab => do lab_to_grey_deep (← cast .lab p)
  | .lchAb => do lch_ab_to_grey_deep (← cast .lchAb p)
  | .lchUv => do lch_uv_to_grey_deep (← cast .lchUv p)
  | .undefined => pure none

/-- color_converter.cpp:1618-1655 -/
noncomputable def to_cmyk (p : Ptr) : Prog Ptr := do
  let c ← load p
  match c.ctype with
  | .rgbTrue => do rgb_true_to_cmyk (← cast .rgbTrue p)
  | .rgbDeep => do rgb_deep_to_cmyk (← cast .rgbDeep p)
  | .greyTrue => do grey_true_to_cmyk (← cast .greyTrue p)
  | .greyDeep => do grey_deep_to_cmyk (← cast .greyDeep p)
  | .cmyk => cast .cmyk p
  | .hsi => do hsi_to_cmyk (← cast .hsi p)
  | .hsv => do hsv_to_cmyk (← cast .hsv p)
  | .hsl => do hsl_to_cmyk (← cast .hsl p)
  | .hcy => do hcy_to_cmyk (← cast .hcy p)
  | .xyz => do xyz_to_cmyk (← cast .xyz p)
  | .xyy => do xyy_to_cmyk (← cast .xyy p)
  | .cieluv => do cieluv_to_cmyk (← cast .cieluv p)
  | .lab => do lab_to_cmyk (← cast .lab p)
  | .lchAb => do lch_ab_to_cmyk (← cast .lchAb p)
  | .lchUv => do lch_uv_to_cmyk (← cast .lchUv p)
  | .undefined => pure none

/-- color_converter.cpp:1657-1694 -/
noncomputable def to_hsi (p : Ptr) : Prog Ptr := do
  let c ← load p
  match c.ctype with
  | .rgbTrue => do rgb_true_to_hsi (← cast .rgbTrue p)
  | .rgbDeep => do rgb_deep_to_hsi (← cast .rgbDeep p)
  | .greyTrue => do grey_true_to_hsi (← cast .greyTrue p)
  | .greyDeep => do grey_deep_to_hsi (← cast .greyDeep p)
  | .cmyk => do cmyk_to_hsi (← cast .cmyk p)
  | .hsi => cast .hsi p
  | .hsv => do hsv_to_hsi (← cast .hsv p)
  | .hsl => do hsl_to_hsi (← cast .hsl p)
  | .hcy => do hcy_to_hsi (← cast .hcy p)
  | .xyz => do xyz_to_hsi (← cast .xyz p)
  | .xyy => do xyy_to_hsi (← cast .xyy p)
  | .cieluv => do cieluv_to_hsi (← cast .cieluv p)
  | .lab => do lab_to_hsi (← cast .lab p)
  | .lchAb => do lch_ab_to_hsi (← cast .lchAb p)
  | .lchUv => do lch_uv_to_hsi (← cast .lchUv p)
  | .undefined => pure none

/-- color_converter.cpp:1696-1733 -/
noncomputable def to_hsv (p : Ptr) : Prog Ptr := do
  let c ← load p
  match c.ctype with
  | .rgbTrue => do rgb_true_to_hsv (← cast .rgbTrue p)
  | .rgbDeep => do rgb_deep_to_hsv (← cast .rgbDeep p)
  | .greyTrue => do grey_true_to_hsv (← cast .greyTrue p)
  | .greyDeep => do grey_deep_to_hsv (← cast .greyDeep p)
  | .cmyk => do cmyk_to_hsv (← cast .cmyk p)
  | .hsi => do hsi_to_hsv (← cast .hsi p)
  | .hsv => cast .hsv p
  | .hsl => do hsl_to_hsv (← cast .hsl p)
  | .hcy => do hcy_to_hsv (← cast .hcy p)
  | .xyz => do xyz_to_hsv (← cast .xyz p)
  | .xyy => do xyy_to_hsv (← cast .xyy p)
  | .cieluv => do cieluv_to_hsv (← cast .cieluv p)
  | .lab => do lab_to_hsv (← cast .lab p)
  | .lchAb => do lch_ab_to_hsv (← cast .lchAb p)
  | .lchUv => do lch_uv_to_hsv (← cast .lchUv p)
  | .undefined => pure none

/-- color_converter.cpp:1735-1772 -/
noncomputable def to_hsl (p : Ptr) : Prog Ptr := do
  let c ← load p
  match c.ctype with
  | .rgbTrue => do rgb_true_to_hsl (← cast .rgbTrue p)
  | .rgbDeep => do rgb_deep_to_hsl (← cast .rgbDeep p)
  | .greyTrue => do grey_true_to_hsl (← cast .greyTrue p)
  | .greyDeep => do grey_deep_to_hsl (← cast .greyDeep p)
  | .cmyk => do cmyk_to_hsl (← cast .cmyk p)
  | .hsi => do hsi_to_hsl (← cast .hsi p)
  | .hsv => do hsv_to_hsl (← cast .hsv p)
  | .hsl => cast .hsl p
  | .hcy => do hcy_to_hsl (← cast .hcy p)
  | .xyz => do xyz_to_hsl (← cast .xyz p)
  | .xyy => do xyy_to_hsl (← cast .xyy p)
  | .cieluv => do cieluv_to_hsl (← cast .cieluv p)
  | .lab => do lab_to_hsl (← cast .lab p)
  | .lchAb => do lch_ab_to_hsl (← cast .lchAb p)
  | .lchUv => do lch_uv_to_hsl (← cast .lchUv p)
  | .undefined => pure none

/-- color_converter.cpp:1774-1811 -/
noncomputable def to_hcy (p : Ptr) : Prog Ptr := do
  let c ← load p
  match c.ctype with
  | .rgbTrue => do rgb_true_to_hcy (← cast .rgbTrue p)
  | .rgbDeep => do rgb_deep_to_hcy (← cast .rgbDeep p)
  | .greyTrue => do grey_true_to_hcy (← cast .greyTrue p)
  | .greyDeep => do grey_deep_to_hcy (← cast .greyDeep p)
  | .cmyk => do cmyk_to_hcy (← cast .cmyk p)
  | .hsi => do hsi_to_hcy (← cast .hsi p)
  | .hsv => do hsv_to_hcy (← cast .hsv p)
  | .hsl => do hsl_to_hcy (← cast .hsl p)
  | .hcy => cast .hcy p
  | .xyz => do xyz_to_hcy (← cast .xyz p)
  | .xyy => do xyy_to_hcy (← cast .xyy p)
  | .cieluv => do cieluv_to_hcy (← cast .cieluv p)
  | .lab => do lab_to_hcy (← cast .lab p)
  | .lchAb => do lch_ab_to_hcy (← cast .lchAb p)
  | .lchUv => do lch_uv_to_hcy (← cast .lchUv p)
  | .undefined => pure none

/-- color_converter.cpp:1813-1850 -/
noncomputable def to_xyz (p : Ptr) : Prog Ptr := do
  let c ← load p
  match c.ctype with
  | .rgbTrue => do rgb_true_to_xyz (← cast .rgbTrue p)
  | .rgbDeep => do rgb_deep_to_xyz (← cast .rgbDeep p)
  | .greyTrue => do grey_true_to_xyz (← cast .greyTrue p)
  | .greyDeep => do grey_deep_to_xyz (← cast .greyDeep p)
  | .cmyk => do cmyk_to_xyz (← cast .cmyk p)
  | .hsi => do hsi_to_xyz (← cast .hsi p)
  | .hsv => do hsv_to_xyz (← cast .hsv p)
  | .hsl => do hsl_to_xyz (← cast .hsl p)
  | .hcy => do hcy_to_xyz (← cast .hcy p)
  | .xyz => cast .xyz p
  | .xyy => do xyy_to_xyz (← cast .xyy p)
  | .cieluv => do cieluv_to_xyz (← cast .cieluv p)
  | .lab => do lab_to_xyz (← cast .lab p)
  | .lchAb => do lch_ab_to_xyz (← cast .lchAb p)
  | .lchUv => do lch_uv_to_xyz (← cast .lchUv p)
  | .undefined => pure none

/-- color_converter.cpp:1852-1889 -/
noncomputable def to_xyy (p : Ptr) : Prog Ptr := do
  let c ← load p
  match c.ctype with
  | .rgbTrue => do rgb_true_to_xyy (← cast .rgbTrue p)
  | .rgbDeep => do rgb_deep_to_xyy (← cast .rgbDeep p)
  | .greyTrue => do grey_true_to_xyy (← cast .greyTrue p)
  | .greyDeep => do grey_deep_to_xyy (← cast .greyDeep p)
  | .cmyk => do cmyk_to_xyy (← cast .cmyk p)
  | .hsi => do hsi_to_xyy (← cast .hsi p)
  | .hsv => do hsv_to_xyy (← cast .hsv p)
  | .hsl => do hsl_to_xyy (← cast .hsl p)
  | .hcy => do hcy_to_xyy (← cast .hcy p)
  | .xyz => do xyz_to_xyy (← cast .xyz p)
  | .xyy => cast .xyy p
  | .cieluv => do cieluv_to_xyy (← cast .cieluv p)
  | .lab => do lab_to_xyy (← cast .lab p)
  | .lchAb => do lch_ab_to_xyy (← cast .lchAb p)
  | .lchUv => do lch_uv_to_xyy (← cast .lchUv p)
  | .undefined => pure none

/-- color_converter.cpp:1891-1928 -/
noncomputable def to_cieluv (p : Ptr) : Prog Ptr := do
  let c ← load p
  match c.ctype with
  | .rgbTrue => do rgb_true_to_cieluv (← cast .rgbTrue p)
  | .rgbDeep => do rgb_deep_to_cieluv (← cast .rgbDeep p)
  | .greyTrue => do grey_true_to_cieluv (← cast .greyTrue p)
  | .greyDeep => do grey_deep_to_cieluv (← cast .greyDeep p)
  | .cmyk => do cmyk_to_cieluv (← cast .cmyk p)
  | .hsi => do hsi_to_cieluv (← cast .hsi p)
  | .hsv => do hsv_to_cieluv (← cast .hsv p)
  | .hsl => do hsl_to_cieluv (← cast .hsl p)
  | .hcy => do hcy_to_cieluv (← cast .hcy p)
  | .xyz => do xyz_to_cieluv (← cast .xyz p)
  | .xyy => do xyy_to_cieluv (← cast .xyy p)
  | .cieluv => cast .cieluv p
  | .lab => do lab_to_cieluv (← cast .lab p)
  | .lchAb => do lch_ab_to_cieluv (← cast .lchAb p)
  | .lchUv => do lch_uv_to_cieluv (← cast .lchUv p)
  | .undefined => pure none

/-- color_converter.cpp:1930-1967 -/
noncomputable def to_lab (p : Ptr) : Prog Ptr := do
  let c ← load p
  match c.ctype with
  | .rgbTrue => do rgb_true_to_lab (← cast .rgbTrue p)
  | .rgbDeep => do rgb_deep_to_lab (← cast .rgbDeep p)
  | .greyTrue => do grey_true_to_lab (← cast .greyTrue p)
  | .greyDeep => do grey_deep_to_lab (← cast .greyDeep p)
  | .cmyk => do cmyk_to_lab (← cast .cmyk p)
  | .hsi => do hsi_to_lab (← cast .hsi p)
  | .hsv => do hsv_to_lab (← cast .hsv p)
  | .hsl => do hsl_to_lab (← cast .hsl p)
  | .hcy => do hcy_to_lab (← cast .hcy p)
  | .xyz => do xyz_to_lab (← cast .xyz p)
  | .xyy => do xyy_to_lab (← cast .xyy p)
  | .cieluv => do cieluv_to_lab (← cast .cieluv p)
  | .lab => cast .lab p
  | .lchAb => do lch_ab_to_lab (← cast .lchAb p)
  | .lchUv => do lch_uv_to_lab (← cast .lchUv p)
  | .undefined => pure none

/-- color_converter.cpp:1969-2006 -/
noncomputable def to_lch_ab (p : Ptr) : Prog Ptr := do
  let c ← load p
  match c.ctype with
  | .rgbTrue => do rgb_true_to_lch_ab (← cast .rgbTrue p)
  | .rgbDeep => do rgb_deep_to_lch_ab (← cast .rgbDeep p)
  | .greyTrue => do grey_true_to_lch_ab (← cast .greyTrue p)
  | .greyDeep => do grey_deep_to_lch_ab (← cast .greyDeep p)
  | .cmyk => do cmyk_to_lch_ab (← cast .cmyk p)
  | .hsi => do hsi_to_lch_ab (← cast .hsi p)
  | .hsv => do hsv_to_lch_ab (← cast .hsv p)
  | .hsl => do hsl_to_lch_ab (← cast .hsl p)
  | .hcy => do hcy_to_lch_ab (← cast .hcy p)
  | .xyz => do xyz_to_lch_ab (← cast .xyz p)
  | .xyy => do xyy_to_lch_ab (← cast .xyy p)
  | .cieluv => do cieluv_to_lch_ab (← cast .cieluv p)
  | .lab => do lab_to_lch_ab (← cast .lab p)
  | .lchAb => cast .lchAb p
  | .lchUv => do lch_uv_to_lch_ab (← cast .lchUv p)
  | .undefined => pure none

/-- color_converter.cpp:2008-2045 -/
noncomputable def to_lch_uv (p : Ptr) : Prog Ptr := do
  let c ← load p
  match c.ctype with
  | .rgbTrue => do rgb_true_to_lch_uv (← cast .rgbTrue p)
  | .rgbDeep => do rgb_deep_to_lch_uv (← cast .rgbDeep p)
  | .greyTrue => do grey_true_to_lch_uv (← cast .greyTrue p)
  | .greyDeep => do grey_deep_to_lch_uv (← cast .greyDeep p)
  | .cmyk => do cmyk_to_lch_uv (← cast .cmyk p)
  | .hsi => do hsi_to_lch_uv (← cast .hsi p)
  | .hsv => do hsv_to_lch_uv (← cast .hsv p)
  | .hsl => do hsl_to_lch_uv (← cast .hsl p)
  | .hcy => do hcy_to_lch_uv (← cast .hcy p)
  | .xyz => do xyz_to_lch_uv (← cast .xyz p)
  | .xyy => do xyy_to_lch_uv (← cast .xyy p)
  | .cieluv => do cieluv_to_lch_uv (← cast .cieluv p)
  | .lab => do lab_to_lch_uv (← cast .lab p)
  | .lchAb => do lch_ab_to_lch_uv (← cast .lchAb p)
  | .lchUv => cast .lchUv p
  | .undefined => pure none

/-- color_converter.cpp:6-39: there is no case for the two LCH types. -/
noncomputable def convertTo (p : Ptr) (t : ColorType) : Prog Ptr :=
  match t with
  | .rgbTrue => to_rgb_true p
  | .rgbDeep => to_rgb_deep p
  | .greyTrue => to_grey_true p
  | .greyDeep => to_grey_deep p
  | .cmyk => to_cmyk p
  | .hsi => to_hsi p
  | .hsv => to_hsv p
  | .hsl => to_hsl p
  | .hcy => to_hcy p
  | .xyz => to_xyz p
  | .xyy => to_xyy p
  | .cieluv => to_cieluv p
  | .lab => to_lab p
  | _ => pure none

end Converter
