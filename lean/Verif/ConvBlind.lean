import Verif.Dispatch

/-! Proof machinery: conversions do not read the opacity of their input.  Generated. -/

open Outcome Fl Prog ObjectSpec

namespace Conv
variable [FloatModel]

/-- A colour without its opacity. -/
def strip (c : Color) : Color := { c with malpha := 0 }

/-- A result without its opacity. -/
def smap : Outcome Color → Outcome Color
  | ok c => ok (strip c)
  | Outcome.throw e => Outcome.throw e
  | ub => ub

/-- The opacity of the input has no influence on the result except on its opacity. -/
def Blind (f : World → Color → Outcome Color) : Prop := ∀ w c a, smap (f w { c with malpha := a }) = smap (f w c)

omit [FloatModel] in
theorem strip_eq {c d : Color} (h : strip c = strip d) : c = { d with malpha := c.malpha } := by
  obtain ⟨_, _, _, _, _, _, _⟩ := c
  obtain ⟨_, _, _, _, _, _, _⟩ := d
  simp only [strip, Color.mk.injEq] at h ⊢
  tauto

theorem Blind.eq {f : World → Color → Outcome Color} (h : Blind f) {w : World} {c d : Color} (e : strip c = strip d) : smap (f w c) = smap (f w d) := by
  rw [strip_eq e]; exact h w d _

omit [FloatModel] in
theorem smap_bind {α : Type} (o : Outcome α) {f g : α → Outcome Color} (h : ∀ a, smap (f a) = smap (g a)) : smap (o >>= f) = smap (o >>= g) := by
  cases o with
  | ok a => exact h a
  | throw e => rfl
  | ub => rfl

omit [FloatModel] in
theorem smap_bind' {o o' : Outcome Color} {f g : Color → Outcome Color} (ho : smap o = smap o') (h : ∀ a b, strip a = strip b → smap (f a) = smap (g b)) :
    smap (o >>= f) = smap (o' >>= g) := by
  cases o <;> cases o' <;> simp [smap] at ho ⊢
  · exact h _ _ ho
  · exact ho

theorem Blind.comp {f g : World → Color → Outcome Color} (hf : Blind f) (hg : Blind g) : Blind fun w c => f w c >>= g w :=
  fun w c a => smap_bind' (hf w c a) fun _ _ e => hg.eq e

theorem smap_setLim (v : Fl) (i : Int) (mx mn : Fl) {c d : Color} (e : strip c = strip d) : smap (c.setComponentLim v i mx mn) = smap (d.setComponentLim v i mx mn) := by
  rw [strip_eq e]
  simp only [Color.setComponentLim]
  split <;> rfl

theorem smap_setChannel (i : Nat) (v : Fl) {c d : Color} (e : strip c = strip d) : smap (c.setChannel i v) = smap (d.setChannel i v) := by
  have h1 : c.cls = d.cls := by rw [strip_eq e]
  have h2 : c.maxv = d.maxv := by rw [strip_eq e]
  have h3 : c.minv = d.minv := by rw [strip_eq e]
  simp only [Color.setChannel, Color.setHue, Color.setComponent, h1, h2, h3]
  split <;> exact smap_setLim _ _ _ _ e

theorem smap_setChannels (vs : List Fl) (i : Nat) {c d : Color} (e : strip c = strip d) : smap (Color.setChannels i vs c) = smap (Color.setChannels i vs d) := by
  induction vs generalizing i c d with
  | nil => simp only [Color.setChannels, smap, e]
  | cons v vs ih => exact smap_bind' (smap_setChannel i v e) fun _ _ e' => ih _ e'

theorem smap_construct (t : ColorType) (vs : List Fl) (al al' : Fl) (sp : Option Nat) : smap (Color.construct t vs al sp) = smap (Color.construct t vs al' sp) := by
  refine smap_bind' (smap_setChannels vs 0 rfl) fun a b e => ?_
  split <;> simp only [pure_eq, smap, ok_inj] <;> exact e

theorem strip_setAlpha {c d : Color} (a b : Fl) (e : strip c = strip d) : strip (c.setAlpha a) = strip (d.setAlpha b) := e

theorem getComponent_strip {c d : Color} (i : Int) (e : strip c = strip d) : c.getComponent i = d.getComponent i := by
  rw [strip_eq e]; rfl

/-- Runs through a conversion function. -/
macro "blind" : tactic => `(tactic|
  repeat' first
    | with_reducible exact smap_construct _ _ _ _ _
    | with_reducible exact smap_bind' (smap_construct _ _ _ _ _) fun _ _ e => congrArg ok (strip_setAlpha _ _ e)
    | refine smap_bind _ fun _ => ?_
    | split
    | rfl)

theorem blind_inverseGamma : Blind Leaf.inverseGamma := fun w c a => by
  simp only [Leaf.inverseGamma]
  blind

theorem blind_forwardGamma : Blind Leaf.forwardGamma := fun w c a => by
  simp only [Leaf.forwardGamma]
  blind

theorem blind_linear_to_xyz : Blind Leaf.linear_to_xyz := fun w c a => by
  simp only [Leaf.linear_to_xyz]
  blind

theorem blind_rgb_true_to_rgb_deep : Blind Val.rgb_true_to_rgb_deep := fun w c a => by
  simp only [Val.rgb_true_to_rgb_deep, Leaf.rgb_true_to_rgb_deep, Leaf.to_lch, Leaf.from_lch, Leaf.forwardGamma, Color.constructGrey]
  blind

theorem blind_rgb_true_to_grey_true : Blind Val.rgb_true_to_grey_true := fun w c a => by
  simp only [Val.rgb_true_to_grey_true, Leaf.rgb_true_to_grey_true, Leaf.to_lch, Leaf.from_lch, Leaf.forwardGamma, Color.constructGrey]
  blind

theorem blind_rgb_deep_to_rgb_true : Blind Val.rgb_deep_to_rgb_true := fun w c a => by
  simp only [Val.rgb_deep_to_rgb_true, Leaf.rgb_deep_to_rgb_true, Leaf.to_lch, Leaf.from_lch, Leaf.forwardGamma, Color.constructGrey]
  blind

theorem blind_rgb_deep_to_grey_deep : Blind Val.rgb_deep_to_grey_deep := fun w c a => by
  simp only [Val.rgb_deep_to_grey_deep, Leaf.rgb_deep_to_grey_deep, Leaf.to_lch, Leaf.from_lch, Leaf.forwardGamma, Color.constructGrey]
  blind

theorem blind_rgb_deep_to_cmyk : Blind Val.rgb_deep_to_cmyk := fun w c a => by
  simp only [Val.rgb_deep_to_cmyk, Leaf.rgb_deep_to_cmyk, Leaf.to_lch, Leaf.from_lch, Leaf.forwardGamma, Color.constructGrey]
  blind

theorem blind_rgb_deep_to_hsi : Blind Val.rgb_deep_to_hsi := fun w c a => by
  simp only [Val.rgb_deep_to_hsi, Leaf.rgb_deep_to_hsi, Leaf.to_lch, Leaf.from_lch, Leaf.forwardGamma, Color.constructGrey]
  blind

theorem blind_rgb_deep_to_hsv : Blind Val.rgb_deep_to_hsv := fun w c a => by
  simp only [Val.rgb_deep_to_hsv, Leaf.rgb_deep_to_hsv, Leaf.to_lch, Leaf.from_lch, Leaf.forwardGamma, Color.constructGrey]
  blind

theorem blind_rgb_deep_to_hsl : Blind Val.rgb_deep_to_hsl := fun w c a => by
  simp only [Val.rgb_deep_to_hsl, Leaf.rgb_deep_to_hsl, Leaf.to_lch, Leaf.from_lch, Leaf.forwardGamma, Color.constructGrey]
  blind

theorem blind_rgb_deep_to_hcy : Blind Val.rgb_deep_to_hcy := fun w c a => by
  simp only [Val.rgb_deep_to_hcy, Leaf.rgb_deep_to_hcy, Leaf.to_lch, Leaf.from_lch, Leaf.forwardGamma, Color.constructGrey]
  blind

theorem blind_grey_true_to_rgb_true : Blind Val.grey_true_to_rgb_true := fun w c a => by
  simp only [Val.grey_true_to_rgb_true, Leaf.grey_true_to_rgb_true, Leaf.to_lch, Leaf.from_lch, Leaf.forwardGamma, Color.constructGrey]
  blind

theorem blind_grey_true_to_rgb_deep : Blind Val.grey_true_to_rgb_deep := fun w c a => by
  simp only [Val.grey_true_to_rgb_deep, Leaf.grey_true_to_rgb_deep, Leaf.to_lch, Leaf.from_lch, Leaf.forwardGamma, Color.constructGrey]
  blind

theorem blind_grey_true_to_grey_deep : Blind Val.grey_true_to_grey_deep := fun w c a => by
  simp only [Val.grey_true_to_grey_deep, Leaf.grey_true_to_grey_deep, Leaf.to_lch, Leaf.from_lch, Leaf.forwardGamma, Color.constructGrey]
  blind

theorem blind_grey_deep_to_rgb_true : Blind Val.grey_deep_to_rgb_true := fun w c a => by
  simp only [Val.grey_deep_to_rgb_true, Leaf.grey_deep_to_rgb_true, Leaf.to_lch, Leaf.from_lch, Leaf.forwardGamma, Color.constructGrey]
  blind

theorem blind_grey_deep_to_rgb_deep : Blind Val.grey_deep_to_rgb_deep := fun w c a => by
  simp only [Val.grey_deep_to_rgb_deep, Leaf.grey_deep_to_rgb_deep, Leaf.to_lch, Leaf.from_lch, Leaf.forwardGamma, Color.constructGrey]
  blind

theorem blind_grey_deep_to_grey_true : Blind Val.grey_deep_to_grey_true := fun w c a => by
  simp only [Val.grey_deep_to_grey_true, Leaf.grey_deep_to_grey_true, Leaf.to_lch, Leaf.from_lch, Leaf.forwardGamma, Color.constructGrey]
  blind

theorem blind_cmyk_to_rgb_deep : Blind Val.cmyk_to_rgb_deep := fun w c a => by
  simp only [Val.cmyk_to_rgb_deep, Leaf.cmyk_to_rgb_deep, Leaf.to_lch, Leaf.from_lch, Leaf.forwardGamma, Color.constructGrey]
  blind

theorem blind_hsi_to_rgb_deep : Blind Val.hsi_to_rgb_deep := fun w c a => by
  simp only [Val.hsi_to_rgb_deep, Leaf.hsi_to_rgb_deep, Leaf.to_lch, Leaf.from_lch, Leaf.forwardGamma, Color.constructGrey]
  blind

theorem blind_hsv_to_rgb_deep : Blind Val.hsv_to_rgb_deep := fun w c a => by
  simp only [Val.hsv_to_rgb_deep, Leaf.hsv_to_rgb_deep, Leaf.to_lch, Leaf.from_lch, Leaf.forwardGamma, Color.constructGrey]
  blind

theorem blind_hsv_to_hsl : Blind Val.hsv_to_hsl := fun w c a => by
  simp only [Val.hsv_to_hsl, Leaf.hsv_to_hsl, Leaf.to_lch, Leaf.from_lch, Leaf.forwardGamma, Color.constructGrey]
  blind

theorem blind_hsl_to_rgb_deep : Blind Val.hsl_to_rgb_deep := fun w c a => by
  simp only [Val.hsl_to_rgb_deep, Leaf.hsl_to_rgb_deep, Leaf.to_lch, Leaf.from_lch, Leaf.forwardGamma, Color.constructGrey]
  blind

theorem blind_hsl_to_hsv : Blind Val.hsl_to_hsv := fun w c a => by
  simp only [Val.hsl_to_hsv, Leaf.hsl_to_hsv, Leaf.to_lch, Leaf.from_lch, Leaf.forwardGamma, Color.constructGrey]
  blind

theorem blind_hcy_to_rgb_deep : Blind Val.hcy_to_rgb_deep := fun w c a => by
  simp only [Val.hcy_to_rgb_deep, Leaf.hcy_to_rgb_deep, Leaf.to_lch, Leaf.from_lch, Leaf.forwardGamma, Color.constructGrey]
  blind

theorem blind_xyz_to_xyy : Blind Val.xyz_to_xyy := fun w c a => by
  simp only [Val.xyz_to_xyy, Leaf.xyz_to_xyy, Leaf.to_lch, Leaf.from_lch, Leaf.forwardGamma, Color.constructGrey]
  blind

theorem blind_xyz_to_cieluv : Blind Val.xyz_to_cieluv := fun w c a => by
  simp only [Val.xyz_to_cieluv, Leaf.xyz_to_cieluv, Leaf.to_lch, Leaf.from_lch, Leaf.forwardGamma, Color.constructGrey]
  blind

theorem blind_xyz_to_lab : Blind Val.xyz_to_lab := fun w c a => by
  simp only [Val.xyz_to_lab, Leaf.xyz_to_lab, Leaf.to_lch, Leaf.from_lch, Leaf.forwardGamma, Color.constructGrey]
  blind

theorem blind_xyy_to_xyz : Blind Val.xyy_to_xyz := fun w c a => by
  simp only [Val.xyy_to_xyz, Leaf.xyy_to_xyz, Leaf.to_lch, Leaf.from_lch, Leaf.forwardGamma, Color.constructGrey]
  blind

theorem blind_cieluv_to_xyz : Blind Val.cieluv_to_xyz := fun w c a => by
  simp only [Val.cieluv_to_xyz, Leaf.cieluv_to_xyz, Leaf.to_lch, Leaf.from_lch, Leaf.forwardGamma, Color.constructGrey]
  blind

theorem blind_cieluv_to_lch_uv : Blind Val.cieluv_to_lch_uv := fun w c a => by
  simp only [Val.cieluv_to_lch_uv, Leaf.cieluv_to_lch_uv, Leaf.to_lch, Leaf.from_lch, Leaf.forwardGamma, Color.constructGrey]
  blind

theorem blind_lab_to_xyz : Blind Val.lab_to_xyz := fun w c a => by
  simp only [Val.lab_to_xyz, Leaf.lab_to_xyz, Leaf.to_lch, Leaf.from_lch, Leaf.forwardGamma, Color.constructGrey]
  blind

theorem blind_lab_to_lch_ab : Blind Val.lab_to_lch_ab := fun w c a => by
  simp only [Val.lab_to_lch_ab, Leaf.lab_to_lch_ab, Leaf.to_lch, Leaf.from_lch, Leaf.forwardGamma, Color.constructGrey]
  blind

theorem blind_lch_ab_to_lab : Blind Val.lch_ab_to_lab := fun w c a => by
  simp only [Val.lch_ab_to_lab, Leaf.lch_ab_to_lab, Leaf.to_lch, Leaf.from_lch, Leaf.forwardGamma, Color.constructGrey]
  blind

theorem blind_lch_uv_to_cieluv : Blind Val.lch_uv_to_cieluv := fun w c a => by
  simp only [Val.lch_uv_to_cieluv, Leaf.lch_uv_to_cieluv, Leaf.to_lch, Leaf.from_lch, Leaf.forwardGamma, Color.constructGrey]
  blind

theorem blind_rgb_true_to_grey_deep : Blind Val.rgb_true_to_grey_deep := fun w c a => by
  refine smap_bind' (blind_rgb_true_to_grey_true w c a) fun g g' e => ?_
  simp only [Leaf.grey_copy_to_deep]
  rw [getComponent_strip (c := g.copy) (d := g'.copy) 0 (by rw [strip_eq e]; rfl)]
  exact smap_bind _ fun _ => smap_construct _ _ _ _ _

theorem blind_rgb_deep_to_xyz : Blind Val.rgb_deep_to_xyz := blind_inverseGamma.comp blind_linear_to_xyz

theorem blind_xyz_to_rgb_deep : Blind Val.xyz_to_rgb_deep := fun w c a => by
  simp only [Val.xyz_to_rgb_deep, Leaf.xyz_to_rgb_deep]
  refine smap_bind _ fun _ => smap_bind _ fun _ => smap_bind _ fun _ => smap_bind _ fun _ => smap_bind _ fun _ => smap_bind' (smap_construct _ _ _ _ _) fun d d' e => ?_
  rw [getComponent_strip 0 e]
  refine smap_bind _ fun _ => smap_bind' (smap_setChannel _ _ e) fun d d' e => ?_
  rw [getComponent_strip 1 e]
  refine smap_bind _ fun _ => smap_bind' (smap_setChannel _ _ e) fun d d' e => ?_
  rw [getComponent_strip 2 e]
  exact smap_bind _ fun _ => smap_bind' (smap_setChannel _ _ e) fun d d' e => blind_forwardGamma.eq e

theorem blind_rgb_true_to_cmyk : Blind Val.rgb_true_to_cmyk := blind_rgb_true_to_rgb_deep.comp blind_rgb_deep_to_cmyk
theorem blind_rgb_true_to_hsi : Blind Val.rgb_true_to_hsi := blind_rgb_true_to_rgb_deep.comp blind_rgb_deep_to_hsi
theorem blind_rgb_true_to_hsv : Blind Val.rgb_true_to_hsv := blind_rgb_true_to_rgb_deep.comp blind_rgb_deep_to_hsv
theorem blind_rgb_true_to_hsl : Blind Val.rgb_true_to_hsl := blind_rgb_true_to_rgb_deep.comp blind_rgb_deep_to_hsl
theorem blind_rgb_true_to_hcy : Blind Val.rgb_true_to_hcy := blind_rgb_true_to_rgb_deep.comp blind_rgb_deep_to_hcy
theorem blind_rgb_true_to_xyz : Blind Val.rgb_true_to_xyz := blind_rgb_true_to_rgb_deep.comp blind_rgb_deep_to_xyz
theorem blind_rgb_true_to_xyy : Blind Val.rgb_true_to_xyy := blind_rgb_true_to_xyz.comp blind_xyz_to_xyy
theorem blind_rgb_true_to_cieluv : Blind Val.rgb_true_to_cieluv := blind_rgb_true_to_xyz.comp blind_xyz_to_cieluv
theorem blind_rgb_deep_to_lab : Blind Val.rgb_deep_to_lab := blind_rgb_deep_to_xyz.comp blind_xyz_to_lab
theorem blind_rgb_true_to_lab : Blind Val.rgb_true_to_lab := blind_rgb_true_to_rgb_deep.comp blind_rgb_deep_to_lab
theorem blind_rgb_true_to_lch_ab : Blind Val.rgb_true_to_lch_ab := blind_rgb_true_to_lab.comp blind_lab_to_lch_ab
theorem blind_rgb_true_to_lch_uv : Blind Val.rgb_true_to_lch_uv := blind_rgb_true_to_cieluv.comp blind_cieluv_to_lch_uv
theorem blind_rgb_deep_to_grey_true : Blind Val.rgb_deep_to_grey_true := blind_rgb_deep_to_rgb_true.comp blind_rgb_true_to_grey_true
theorem blind_rgb_deep_to_xyy : Blind Val.rgb_deep_to_xyy := blind_rgb_deep_to_xyz.comp blind_xyz_to_xyy
theorem blind_rgb_deep_to_cieluv : Blind Val.rgb_deep_to_cieluv := blind_rgb_deep_to_xyz.comp blind_xyz_to_cieluv
theorem blind_rgb_deep_to_lch_ab : Blind Val.rgb_deep_to_lch_ab := blind_rgb_deep_to_lab.comp blind_lab_to_lch_ab
theorem blind_rgb_deep_to_lch_uv : Blind Val.rgb_deep_to_lch_uv := blind_rgb_deep_to_cieluv.comp blind_cieluv_to_lch_uv
theorem blind_grey_true_to_cmyk : Blind Val.grey_true_to_cmyk := blind_grey_true_to_rgb_deep.comp blind_rgb_deep_to_cmyk
theorem blind_grey_true_to_hsi : Blind Val.grey_true_to_hsi := blind_grey_true_to_rgb_deep.comp blind_rgb_deep_to_hsi
theorem blind_grey_true_to_hsv : Blind Val.grey_true_to_hsv := blind_grey_true_to_rgb_deep.comp blind_rgb_deep_to_hsv
theorem blind_grey_true_to_hsl : Blind Val.grey_true_to_hsl := blind_grey_true_to_rgb_deep.comp blind_rgb_deep_to_hsl
theorem blind_grey_true_to_hcy : Blind Val.grey_true_to_hcy := blind_grey_true_to_rgb_deep.comp blind_rgb_deep_to_hcy
theorem blind_grey_true_to_xyz : Blind Val.grey_true_to_xyz := blind_grey_true_to_rgb_deep.comp blind_rgb_deep_to_xyz
theorem blind_grey_true_to_xyy : Blind Val.grey_true_to_xyy := blind_grey_true_to_xyz.comp blind_xyz_to_xyy
theorem blind_grey_true_to_cieluv : Blind Val.grey_true_to_cieluv := blind_grey_true_to_xyz.comp blind_xyz_to_cieluv
theorem blind_grey_true_to_lab : Blind Val.grey_true_to_lab := blind_grey_true_to_rgb_deep.comp blind_rgb_deep_to_lab
theorem blind_grey_true_to_lch_ab : Blind Val.grey_true_to_lch_ab := blind_grey_true_to_lab.comp blind_lab_to_lch_ab
theorem blind_grey_true_to_lch_uv : Blind Val.grey_true_to_lch_uv := blind_grey_true_to_cieluv.comp blind_cieluv_to_lch_uv
theorem blind_grey_deep_to_cmyk : Blind Val.grey_deep_to_cmyk := blind_grey_deep_to_rgb_deep.comp blind_rgb_deep_to_cmyk
theorem blind_grey_deep_to_hsi : Blind Val.grey_deep_to_hsi := blind_grey_deep_to_rgb_deep.comp blind_rgb_deep_to_hsi
theorem blind_grey_deep_to_hsv : Blind Val.grey_deep_to_hsv := blind_grey_deep_to_rgb_deep.comp blind_rgb_deep_to_hsv
theorem blind_grey_deep_to_hsl : Blind Val.grey_deep_to_hsl := blind_grey_deep_to_rgb_deep.comp blind_rgb_deep_to_hsl
theorem blind_grey_deep_to_hcy : Blind Val.grey_deep_to_hcy := blind_grey_deep_to_rgb_deep.comp blind_rgb_deep_to_hcy
theorem blind_grey_deep_to_xyz : Blind Val.grey_deep_to_xyz := blind_grey_deep_to_rgb_deep.comp blind_rgb_deep_to_xyz
theorem blind_grey_deep_to_xyy : Blind Val.grey_deep_to_xyy := blind_grey_deep_to_xyz.comp blind_xyz_to_xyy
theorem blind_grey_deep_to_cieluv : Blind Val.grey_deep_to_cieluv := blind_grey_deep_to_xyz.comp blind_xyz_to_cieluv
theorem blind_grey_deep_to_lab : Blind Val.grey_deep_to_lab := blind_grey_deep_to_rgb_deep.comp blind_rgb_deep_to_lab
theorem blind_grey_deep_to_lch_ab : Blind Val.grey_deep_to_lch_ab := blind_grey_deep_to_lab.comp blind_lab_to_lch_ab
theorem blind_grey_deep_to_lch_uv : Blind Val.grey_deep_to_lch_uv := blind_grey_deep_to_cieluv.comp blind_cieluv_to_lch_uv
theorem blind_cmyk_to_rgb_true : Blind Val.cmyk_to_rgb_true := blind_cmyk_to_rgb_deep.comp blind_rgb_deep_to_rgb_true
theorem blind_cmyk_to_grey_true : Blind Val.cmyk_to_grey_true := blind_cmyk_to_rgb_deep.comp blind_rgb_deep_to_grey_true
theorem blind_cmyk_to_grey_deep : Blind Val.cmyk_to_grey_deep := blind_cmyk_to_rgb_deep.comp blind_rgb_deep_to_grey_deep
theorem blind_cmyk_to_hsi : Blind Val.cmyk_to_hsi := blind_cmyk_to_rgb_deep.comp blind_rgb_deep_to_hsi
theorem blind_cmyk_to_hsv : Blind Val.cmyk_to_hsv := blind_cmyk_to_rgb_deep.comp blind_rgb_deep_to_hsv
theorem blind_cmyk_to_hsl : Blind Val.cmyk_to_hsl := blind_cmyk_to_rgb_deep.comp blind_rgb_deep_to_hsl
theorem blind_cmyk_to_hcy : Blind Val.cmyk_to_hcy := blind_cmyk_to_rgb_deep.comp blind_rgb_deep_to_hcy
theorem blind_cmyk_to_xyz : Blind Val.cmyk_to_xyz := blind_cmyk_to_rgb_deep.comp blind_rgb_deep_to_xyz
theorem blind_cmyk_to_xyy : Blind Val.cmyk_to_xyy := blind_cmyk_to_xyz.comp blind_xyz_to_xyy
theorem blind_cmyk_to_cieluv : Blind Val.cmyk_to_cieluv := blind_cmyk_to_xyz.comp blind_xyz_to_cieluv
theorem blind_cmyk_to_lab : Blind Val.cmyk_to_lab := blind_cmyk_to_rgb_deep.comp blind_rgb_deep_to_lab
theorem blind_cmyk_to_lch_ab : Blind Val.cmyk_to_lch_ab := blind_cmyk_to_lab.comp blind_lab_to_lch_ab
theorem blind_cmyk_to_lch_uv : Blind Val.cmyk_to_lch_uv := blind_cmyk_to_cieluv.comp blind_cieluv_to_lch_uv
theorem blind_hsi_to_rgb_true : Blind Val.hsi_to_rgb_true := blind_hsi_to_rgb_deep.comp blind_rgb_deep_to_rgb_true
theorem blind_hsi_to_grey_true : Blind Val.hsi_to_grey_true := blind_hsi_to_rgb_deep.comp blind_rgb_deep_to_grey_true
theorem blind_hsi_to_grey_deep : Blind Val.hsi_to_grey_deep := blind_hsi_to_rgb_deep.comp blind_rgb_deep_to_grey_deep
theorem blind_hsi_to_cmyk : Blind Val.hsi_to_cmyk := blind_hsi_to_rgb_deep.comp blind_rgb_deep_to_cmyk
theorem blind_hsi_to_hsv : Blind Val.hsi_to_hsv := blind_hsi_to_rgb_deep.comp blind_rgb_deep_to_hsv
theorem blind_hsi_to_hsl : Blind Val.hsi_to_hsl := blind_hsi_to_rgb_deep.comp blind_rgb_deep_to_hsl
theorem blind_hsi_to_hcy : Blind Val.hsi_to_hcy := blind_hsi_to_rgb_deep.comp blind_rgb_deep_to_hcy
theorem blind_hsi_to_xyz : Blind Val.hsi_to_xyz := blind_hsi_to_rgb_deep.comp blind_rgb_deep_to_xyz
theorem blind_hsi_to_xyy : Blind Val.hsi_to_xyy := blind_hsi_to_rgb_deep.comp blind_rgb_deep_to_xyy
theorem blind_hsi_to_cieluv : Blind Val.hsi_to_cieluv := blind_hsi_to_rgb_deep.comp blind_rgb_deep_to_cieluv
theorem blind_hsi_to_lab : Blind Val.hsi_to_lab := blind_hsi_to_rgb_deep.comp blind_rgb_deep_to_lab
theorem blind_hsi_to_lch_ab : Blind Val.hsi_to_lch_ab := blind_hsi_to_rgb_deep.comp blind_rgb_deep_to_lch_ab
theorem blind_hsi_to_lch_uv : Blind Val.hsi_to_lch_uv := blind_hsi_to_rgb_deep.comp blind_rgb_deep_to_lch_uv
theorem blind_hsv_to_rgb_true : Blind Val.hsv_to_rgb_true := blind_hsv_to_rgb_deep.comp blind_rgb_deep_to_rgb_true
theorem blind_hsv_to_grey_true : Blind Val.hsv_to_grey_true := blind_hsv_to_rgb_deep.comp blind_rgb_deep_to_grey_true
theorem blind_hsv_to_grey_deep : Blind Val.hsv_to_grey_deep := blind_hsv_to_rgb_deep.comp blind_rgb_deep_to_grey_deep
theorem blind_hsv_to_cmyk : Blind Val.hsv_to_cmyk := blind_hsv_to_rgb_deep.comp blind_rgb_deep_to_cmyk
theorem blind_hsv_to_hsi : Blind Val.hsv_to_hsi := blind_hsv_to_rgb_deep.comp blind_rgb_deep_to_hsi
theorem blind_hsv_to_hcy : Blind Val.hsv_to_hcy := blind_hsv_to_rgb_deep.comp blind_rgb_deep_to_hcy
theorem blind_hsv_to_xyz : Blind Val.hsv_to_xyz := blind_hsv_to_rgb_deep.comp blind_rgb_deep_to_xyz
theorem blind_hsv_to_xyy : Blind Val.hsv_to_xyy := blind_hsv_to_xyz.comp blind_xyz_to_xyy
theorem blind_hsv_to_cieluv : Blind Val.hsv_to_cieluv := blind_hsv_to_xyz.comp blind_xyz_to_cieluv
theorem blind_hsv_to_lab : Blind Val.hsv_to_lab := blind_hsv_to_rgb_deep.comp blind_rgb_deep_to_lab
theorem blind_hsv_to_lch_ab : Blind Val.hsv_to_lch_ab := blind_hsv_to_lab.comp blind_lab_to_lch_ab
theorem blind_hsv_to_lch_uv : Blind Val.hsv_to_lch_uv := blind_hsv_to_cieluv.comp blind_cieluv_to_lch_uv
theorem blind_hsl_to_rgb_true : Blind Val.hsl_to_rgb_true := blind_hsl_to_rgb_deep.comp blind_rgb_deep_to_rgb_true
theorem blind_hsl_to_grey_true : Blind Val.hsl_to_grey_true := blind_hsl_to_rgb_deep.comp blind_rgb_deep_to_grey_true
theorem blind_hsl_to_grey_deep : Blind Val.hsl_to_grey_deep := blind_hsl_to_rgb_deep.comp blind_rgb_deep_to_grey_deep
theorem blind_hsl_to_cmyk : Blind Val.hsl_to_cmyk := blind_hsl_to_rgb_deep.comp blind_rgb_deep_to_cmyk
theorem blind_hsl_to_hsi : Blind Val.hsl_to_hsi := blind_hsl_to_rgb_deep.comp blind_rgb_deep_to_hsi
theorem blind_hsl_to_hcy : Blind Val.hsl_to_hcy := blind_hsl_to_rgb_deep.comp blind_rgb_deep_to_hcy
theorem blind_hsl_to_xyz : Blind Val.hsl_to_xyz := blind_hsl_to_rgb_deep.comp blind_rgb_deep_to_xyz
theorem blind_hsl_to_xyy : Blind Val.hsl_to_xyy := blind_hsl_to_xyz.comp blind_xyz_to_xyy
theorem blind_hsl_to_cieluv : Blind Val.hsl_to_cieluv := blind_hsl_to_xyz.comp blind_xyz_to_cieluv
theorem blind_hsl_to_lab : Blind Val.hsl_to_lab := blind_hsl_to_rgb_deep.comp blind_rgb_deep_to_lab
theorem blind_hsl_to_lch_ab : Blind Val.hsl_to_lch_ab := blind_hsl_to_lab.comp blind_lab_to_lch_ab
theorem blind_hsl_to_lch_uv : Blind Val.hsl_to_lch_uv := blind_hsl_to_cieluv.comp blind_cieluv_to_lch_uv
theorem blind_hcy_to_rgb_true : Blind Val.hcy_to_rgb_true := blind_hcy_to_rgb_deep.comp blind_rgb_deep_to_rgb_true
theorem blind_hcy_to_grey_true : Blind Val.hcy_to_grey_true := blind_hcy_to_rgb_deep.comp blind_rgb_deep_to_grey_true
theorem blind_hcy_to_grey_deep : Blind Val.hcy_to_grey_deep := blind_hcy_to_rgb_deep.comp blind_rgb_deep_to_grey_deep
theorem blind_hcy_to_cmyk : Blind Val.hcy_to_cmyk := blind_hcy_to_rgb_deep.comp blind_rgb_deep_to_cmyk
theorem blind_hcy_to_hsi : Blind Val.hcy_to_hsi := blind_hcy_to_rgb_deep.comp blind_rgb_deep_to_hsi
theorem blind_hcy_to_hsv : Blind Val.hcy_to_hsv := blind_hcy_to_rgb_deep.comp blind_rgb_deep_to_hsv
theorem blind_hcy_to_hsl : Blind Val.hcy_to_hsl := blind_hcy_to_rgb_deep.comp blind_rgb_deep_to_hsl
theorem blind_hcy_to_xyz : Blind Val.hcy_to_xyz := blind_hcy_to_rgb_deep.comp blind_rgb_deep_to_xyz
theorem blind_hcy_to_xyy : Blind Val.hcy_to_xyy := blind_hcy_to_rgb_deep.comp blind_rgb_deep_to_xyy
theorem blind_hcy_to_cieluv : Blind Val.hcy_to_cieluv := blind_hcy_to_rgb_deep.comp blind_rgb_deep_to_cieluv
theorem blind_hcy_to_lab : Blind Val.hcy_to_lab := blind_hcy_to_rgb_deep.comp blind_rgb_deep_to_lab
theorem blind_hcy_to_lch_ab : Blind Val.hcy_to_lch_ab := blind_hcy_to_rgb_deep.comp blind_rgb_deep_to_lch_ab
theorem blind_hcy_to_lch_uv : Blind Val.hcy_to_lch_uv := blind_hcy_to_rgb_deep.comp blind_rgb_deep_to_lch_uv
theorem blind_xyz_to_rgb_true : Blind Val.xyz_to_rgb_true := blind_xyz_to_rgb_deep.comp blind_rgb_deep_to_rgb_true
theorem blind_xyz_to_grey_true : Blind Val.xyz_to_grey_true := blind_xyz_to_rgb_deep.comp blind_rgb_deep_to_grey_true
theorem blind_xyz_to_grey_deep : Blind Val.xyz_to_grey_deep := blind_xyz_to_rgb_deep.comp blind_rgb_deep_to_grey_deep
theorem blind_xyz_to_cmyk : Blind Val.xyz_to_cmyk := blind_xyz_to_rgb_deep.comp blind_rgb_deep_to_cmyk
theorem blind_xyz_to_hsi : Blind Val.xyz_to_hsi := blind_xyz_to_rgb_deep.comp blind_rgb_deep_to_hsi
theorem blind_xyz_to_hsv : Blind Val.xyz_to_hsv := blind_xyz_to_rgb_deep.comp blind_rgb_deep_to_hsv
theorem blind_xyz_to_hsl : Blind Val.xyz_to_hsl := blind_xyz_to_rgb_deep.comp blind_rgb_deep_to_hsl
theorem blind_xyz_to_hcy : Blind Val.xyz_to_hcy := blind_xyz_to_rgb_deep.comp blind_rgb_deep_to_hcy
theorem blind_xyz_to_lch_ab : Blind Val.xyz_to_lch_ab := blind_xyz_to_lab.comp blind_lab_to_lch_ab
theorem blind_xyz_to_lch_uv : Blind Val.xyz_to_lch_uv := blind_xyz_to_cieluv.comp blind_cieluv_to_lch_uv
theorem blind_xyy_to_rgb_true : Blind Val.xyy_to_rgb_true := blind_xyy_to_xyz.comp blind_xyz_to_rgb_true
theorem blind_xyy_to_rgb_deep : Blind Val.xyy_to_rgb_deep := blind_xyy_to_xyz.comp blind_xyz_to_rgb_deep
theorem blind_xyy_to_grey_true : Blind Val.xyy_to_grey_true := blind_xyy_to_xyz.comp blind_xyz_to_grey_true
theorem blind_xyy_to_grey_deep : Blind Val.xyy_to_grey_deep := blind_xyy_to_xyz.comp blind_xyz_to_grey_deep
theorem blind_xyy_to_cmyk : Blind Val.xyy_to_cmyk := blind_xyy_to_xyz.comp blind_xyz_to_cmyk
theorem blind_xyy_to_hsi : Blind Val.xyy_to_hsi := blind_xyy_to_xyz.comp blind_xyz_to_hsi
theorem blind_xyy_to_hsv : Blind Val.xyy_to_hsv := blind_xyy_to_xyz.comp blind_xyz_to_hsv
theorem blind_xyy_to_hsl : Blind Val.xyy_to_hsl := blind_xyy_to_xyz.comp blind_xyz_to_hsl
theorem blind_xyy_to_hcy : Blind Val.xyy_to_hcy := blind_xyy_to_xyz.comp blind_xyz_to_hcy
theorem blind_xyy_to_cieluv : Blind Val.xyy_to_cieluv := blind_xyy_to_xyz.comp blind_xyz_to_cieluv
theorem blind_xyy_to_lab : Blind Val.xyy_to_lab := blind_xyy_to_xyz.comp blind_xyz_to_lab
theorem blind_xyy_to_lch_ab : Blind Val.xyy_to_lch_ab := blind_xyy_to_lab.comp blind_lab_to_lch_ab
theorem blind_xyy_to_lch_uv : Blind Val.xyy_to_lch_uv := blind_xyy_to_cieluv.comp blind_cieluv_to_lch_uv
theorem blind_cieluv_to_rgb_true : Blind Val.cieluv_to_rgb_true := blind_cieluv_to_xyz.comp blind_xyz_to_rgb_true
theorem blind_cieluv_to_rgb_deep : Blind Val.cieluv_to_rgb_deep := blind_cieluv_to_xyz.comp blind_xyz_to_rgb_deep
theorem blind_cieluv_to_grey_true : Blind Val.cieluv_to_grey_true := blind_cieluv_to_xyz.comp blind_xyz_to_grey_true
theorem blind_cieluv_to_grey_deep : Blind Val.cieluv_to_grey_deep := blind_cieluv_to_xyz.comp blind_xyz_to_grey_deep
theorem blind_cieluv_to_cmyk : Blind Val.cieluv_to_cmyk := blind_cieluv_to_xyz.comp blind_xyz_to_cmyk
theorem blind_cieluv_to_hsi : Blind Val.cieluv_to_hsi := blind_cieluv_to_xyz.comp blind_xyz_to_hsi
theorem blind_cieluv_to_hsv : Blind Val.cieluv_to_hsv := blind_cieluv_to_xyz.comp blind_xyz_to_hsv
theorem blind_cieluv_to_hsl : Blind Val.cieluv_to_hsl := blind_cieluv_to_xyz.comp blind_xyz_to_hsl
theorem blind_cieluv_to_hcy : Blind Val.cieluv_to_hcy := blind_cieluv_to_xyz.comp blind_xyz_to_hcy
theorem blind_cieluv_to_xyy : Blind Val.cieluv_to_xyy := blind_cieluv_to_xyz.comp blind_xyz_to_xyy
theorem blind_cieluv_to_lab : Blind Val.cieluv_to_lab := blind_cieluv_to_xyz.comp blind_xyz_to_lab
theorem blind_cieluv_to_lch_ab : Blind Val.cieluv_to_lch_ab := blind_cieluv_to_lab.comp blind_lab_to_lch_ab
theorem blind_lab_to_rgb_true : Blind Val.lab_to_rgb_true := blind_lab_to_xyz.comp blind_xyz_to_rgb_true
theorem blind_lab_to_rgb_deep : Blind Val.lab_to_rgb_deep := blind_lab_to_xyz.comp blind_xyz_to_rgb_deep
theorem blind_lab_to_grey_true : Blind Val.lab_to_grey_true := blind_lab_to_xyz.comp blind_xyz_to_grey_true
theorem blind_lab_to_grey_deep : Blind Val.lab_to_grey_deep := blind_lab_to_xyz.comp blind_xyz_to_grey_deep
theorem blind_lab_to_cmyk : Blind Val.lab_to_cmyk := blind_lab_to_xyz.comp blind_xyz_to_cmyk
theorem blind_lab_to_hsi : Blind Val.lab_to_hsi := blind_lab_to_xyz.comp blind_xyz_to_hsi
theorem blind_lab_to_hsv : Blind Val.lab_to_hsv := blind_lab_to_xyz.comp blind_xyz_to_hsv
theorem blind_lab_to_hsl : Blind Val.lab_to_hsl := blind_lab_to_xyz.comp blind_xyz_to_hsl
theorem blind_lab_to_hcy : Blind Val.lab_to_hcy := blind_lab_to_xyz.comp blind_xyz_to_hcy
theorem blind_lab_to_xyy : Blind Val.lab_to_xyy := blind_lab_to_xyz.comp blind_xyz_to_xyy
theorem blind_lab_to_cieluv : Blind Val.lab_to_cieluv := blind_lab_to_xyz.comp blind_xyz_to_cieluv
theorem blind_lab_to_lch_uv : Blind Val.lab_to_lch_uv := blind_lab_to_cieluv.comp blind_cieluv_to_lch_uv
theorem blind_lch_ab_to_rgb_true : Blind Val.lch_ab_to_rgb_true := blind_lch_ab_to_lab.comp blind_lab_to_rgb_true
theorem blind_lch_ab_to_rgb_deep : Blind Val.lch_ab_to_rgb_deep := blind_lch_ab_to_lab.comp blind_lab_to_rgb_deep
theorem blind_lch_ab_to_grey_true : Blind Val.lch_ab_to_grey_true := blind_lch_ab_to_lab.comp blind_lab_to_grey_true
theorem blind_lch_ab_to_grey_deep : Blind Val.lch_ab_to_grey_deep := blind_lch_ab_to_lab.comp blind_lab_to_grey_deep
theorem blind_lch_ab_to_cmyk : Blind Val.lch_ab_to_cmyk := blind_lch_ab_to_lab.comp blind_lab_to_cmyk
theorem blind_lch_ab_to_hsi : Blind Val.lch_ab_to_hsi := blind_lch_ab_to_lab.comp blind_lab_to_hsi
theorem blind_lch_ab_to_hsv : Blind Val.lch_ab_to_hsv := blind_lch_ab_to_lab.comp blind_lab_to_hsv
theorem blind_lch_ab_to_hsl : Blind Val.lch_ab_to_hsl := blind_lch_ab_to_lab.comp blind_lab_to_hsl
theorem blind_lch_ab_to_hcy : Blind Val.lch_ab_to_hcy := blind_lch_ab_to_lab.comp blind_lab_to_hcy
theorem blind_lch_ab_to_xyz : Blind Val.lch_ab_to_xyz := blind_lch_ab_to_lab.comp blind_lab_to_xyz
theorem blind_lch_ab_to_xyy : Blind Val.lch_ab_to_xyy := blind_lch_ab_to_lab.comp blind_lab_to_xyy
theorem blind_lch_ab_to_cieluv : Blind Val.lch_ab_to_cieluv := blind_lch_ab_to_lab.comp blind_lab_to_cieluv
theorem blind_lch_ab_to_lch_uv : Blind Val.lch_ab_to_lch_uv := blind_lch_ab_to_cieluv.comp blind_cieluv_to_lch_uv
theorem blind_lch_uv_to_rgb_true : Blind Val.lch_uv_to_rgb_true := blind_lch_uv_to_cieluv.comp blind_cieluv_to_rgb_true
theorem blind_lch_uv_to_rgb_deep : Blind Val.lch_uv_to_rgb_deep := blind_lch_uv_to_cieluv.comp blind_cieluv_to_rgb_deep
theorem blind_lch_uv_to_grey_true : Blind Val.lch_uv_to_grey_true := blind_lch_uv_to_cieluv.comp blind_cieluv_to_grey_true
theorem blind_lch_uv_to_grey_deep : Blind Val.lch_uv_to_grey_deep := blind_lch_uv_to_cieluv.comp blind_cieluv_to_grey_deep
theorem blind_lch_uv_to_cmyk : Blind Val.lch_uv_to_cmyk := blind_lch_uv_to_cieluv.comp blind_cieluv_to_cmyk
theorem blind_lch_uv_to_hsi : Blind Val.lch_uv_to_hsi := blind_lch_uv_to_cieluv.comp blind_cieluv_to_hsi
theorem blind_lch_uv_to_hsv : Blind Val.lch_uv_to_hsv := blind_lch_uv_to_cieluv.comp blind_cieluv_to_hsv
theorem blind_lch_uv_to_hsl : Blind Val.lch_uv_to_hsl := blind_lch_uv_to_cieluv.comp blind_cieluv_to_hsl
theorem blind_lch_uv_to_hcy : Blind Val.lch_uv_to_hcy := blind_lch_uv_to_cieluv.comp blind_cieluv_to_hcy
theorem blind_lch_uv_to_xyz : Blind Val.lch_uv_to_xyz := blind_lch_uv_to_cieluv.comp blind_cieluv_to_xyz
theorem blind_lch_uv_to_xyy : Blind Val.lch_uv_to_xyy := blind_lch_uv_to_cieluv.comp blind_cieluv_to_xyy
theorem blind_lch_uv_to_lab : Blind Val.lch_uv_to_lab := blind_lch_uv_to_cieluv.comp blind_cieluv_to_lab
theorem blind_lch_uv_to_lch_ab : Blind Val.lch_uv_to_lch_ab := blind_lch_uv_to_cieluv.comp blind_cieluv_to_lch_ab

theorem blind_conv (s t : ColorType) : Blind (Val.conv s t) := by
  cases s <;> cases t
  · exact fun _ _ _ => rfl
  · exact blind_rgb_true_to_rgb_deep
  · exact blind_rgb_true_to_grey_true
  · exact blind_rgb_true_to_grey_deep
  · exact blind_rgb_true_to_cmyk
  · exact blind_rgb_true_to_hsi
  · exact blind_rgb_true_to_hsv
  · exact blind_rgb_true_to_hsl
  · exact blind_rgb_true_to_hcy
  · exact blind_rgb_true_to_xyz
  · exact blind_rgb_true_to_xyy
  · exact blind_rgb_true_to_cieluv
  · exact blind_rgb_true_to_lab
  · exact blind_rgb_true_to_lch_ab
  · exact blind_rgb_true_to_lch_uv
  · exact fun _ _ _ => rfl
  · exact blind_rgb_deep_to_rgb_true
  · exact fun _ _ _ => rfl
  · exact blind_rgb_deep_to_grey_true
  · exact blind_rgb_deep_to_grey_deep
  · exact blind_rgb_deep_to_cmyk
  · exact blind_rgb_deep_to_hsi
  · exact blind_rgb_deep_to_hsv
  · exact blind_rgb_deep_to_hsl
  · exact blind_rgb_deep_to_hcy
  · exact blind_rgb_deep_to_xyz
  · exact blind_rgb_deep_to_xyy
  · exact blind_rgb_deep_to_cieluv
  · exact blind_rgb_deep_to_lab
  · exact blind_rgb_deep_to_lch_ab
  · exact blind_rgb_deep_to_lch_uv
  · exact fun _ _ _ => rfl
  · exact blind_grey_true_to_rgb_true
  · exact blind_grey_true_to_rgb_deep
  · exact fun _ _ _ => rfl
  · exact blind_grey_true_to_grey_deep
  · exact blind_grey_true_to_cmyk
  · exact blind_grey_true_to_hsi
  · exact blind_grey_true_to_hsv
  · exact blind_grey_true_to_hsl
  · exact blind_grey_true_to_hcy
  · exact blind_grey_true_to_xyz
  · exact blind_grey_true_to_xyy
  · exact blind_grey_true_to_cieluv
  · exact blind_grey_true_to_lab
  · exact blind_grey_true_to_lch_ab
  · exact blind_grey_true_to_lch_uv
  · exact fun _ _ _ => rfl
  · exact blind_grey_deep_to_rgb_true
  · exact blind_grey_deep_to_rgb_deep
  · exact blind_grey_deep_to_grey_true
  · exact fun _ _ _ => rfl
  · exact blind_grey_deep_to_cmyk
  · exact blind_grey_deep_to_hsi
  · exact blind_grey_deep_to_hsv
  · exact blind_grey_deep_to_hsl
  · exact blind_grey_deep_to_hcy
  · exact blind_grey_deep_to_xyz
  · exact blind_grey_deep_to_xyy
  · exact blind_grey_deep_to_cieluv
  · exact blind_grey_deep_to_lab
  · exact blind_grey_deep_to_lch_ab
  · exact blind_grey_deep_to_lch_uv
  · exact fun _ _ _ => rfl
  · exact blind_cmyk_to_rgb_true
  · exact blind_cmyk_to_rgb_deep
  · exact blind_cmyk_to_grey_true
  · exact blind_cmyk_to_grey_deep
  · exact fun _ _ _ => rfl
  · exact blind_cmyk_to_hsi
  · exact blind_cmyk_to_hsv
  · exact blind_cmyk_to_hsl
  · exact blind_cmyk_to_hcy
  · exact blind_cmyk_to_xyz
  · exact blind_cmyk_to_xyy
  · exact blind_cmyk_to_cieluv
  · exact blind_cmyk_to_lab
  · exact blind_cmyk_to_lch_ab
  · exact blind_cmyk_to_lch_uv
  · exact fun _ _ _ => rfl
  · exact blind_hsi_to_rgb_true
  · exact blind_hsi_to_rgb_deep
  · exact blind_hsi_to_grey_true
  · exact blind_hsi_to_grey_deep
  · exact blind_hsi_to_cmyk
  · exact fun _ _ _ => rfl
  · exact blind_hsi_to_hsv
  · exact blind_hsi_to_hsl
  · exact blind_hsi_to_hcy
  · exact blind_hsi_to_xyz
  · exact blind_hsi_to_xyy
  · exact blind_hsi_to_cieluv
  · exact blind_hsi_to_lab
  · exact blind_hsi_to_lch_ab
  · exact blind_hsi_to_lch_uv
  · exact fun _ _ _ => rfl
  · exact blind_hsv_to_rgb_true
  · exact blind_hsv_to_rgb_deep
  · exact blind_hsv_to_grey_true
  · exact blind_hsv_to_grey_deep
  · exact blind_hsv_to_cmyk
  · exact blind_hsv_to_hsi
  · exact fun _ _ _ => rfl
  · exact blind_hsv_to_hsl
  · exact blind_hsv_to_hcy
  · exact blind_hsv_to_xyz
  · exact blind_hsv_to_xyy
  · exact blind_hsv_to_cieluv
  · exact blind_hsv_to_lab
  · exact blind_hsv_to_lch_ab
  · exact blind_hsv_to_lch_uv
  · exact fun _ _ _ => rfl
  · exact blind_hsl_to_rgb_true
  · exact blind_hsl_to_rgb_deep
  · exact blind_hsl_to_grey_true
  · exact blind_hsl_to_grey_deep
  · exact blind_hsl_to_cmyk
  · exact blind_hsl_to_hsi
  · exact blind_hsl_to_hsv
  · exact fun _ _ _ => rfl
  · exact blind_hsl_to_hcy
  · exact blind_hsl_to_xyz
  · exact blind_hsl_to_xyy
  · exact blind_hsl_to_cieluv
  · exact blind_hsl_to_lab
  · exact blind_hsl_to_lch_ab
  · exact blind_hsl_to_lch_uv
  · exact fun _ _ _ => rfl
  · exact blind_hcy_to_rgb_true
  · exact blind_hcy_to_rgb_deep
  · exact blind_hcy_to_grey_true
  · exact blind_hcy_to_grey_deep
  · exact blind_hcy_to_cmyk
  · exact blind_hcy_to_hsi
  · exact blind_hcy_to_hsv
  · exact blind_hcy_to_hsl
  · exact fun _ _ _ => rfl
  · exact blind_hcy_to_xyz
  · exact blind_hcy_to_xyy
  · exact blind_hcy_to_cieluv
  · exact blind_hcy_to_lab
  · exact blind_hcy_to_lch_ab
  · exact blind_hcy_to_lch_uv
  · exact fun _ _ _ => rfl
  · exact blind_xyz_to_rgb_true
  · exact blind_xyz_to_rgb_deep
  · exact blind_xyz_to_grey_true
  · exact blind_xyz_to_grey_deep
  · exact blind_xyz_to_cmyk
  · exact blind_xyz_to_hsi
  · exact blind_xyz_to_hsv
  · exact blind_xyz_to_hsl
  · exact blind_xyz_to_hcy
  · exact fun _ _ _ => rfl
  · exact blind_xyz_to_xyy
  · exact blind_xyz_to_cieluv
  · exact blind_xyz_to_lab
  · exact blind_xyz_to_lch_ab
  · exact blind_xyz_to_lch_uv
  · exact fun _ _ _ => rfl
  · exact blind_xyy_to_rgb_true
  · exact blind_xyy_to_rgb_deep
  · exact blind_xyy_to_grey_true
  · exact blind_xyy_to_grey_deep
  · exact blind_xyy_to_cmyk
  · exact blind_xyy_to_hsi
  · exact blind_xyy_to_hsv
  · exact blind_xyy_to_hsl
  · exact blind_xyy_to_hcy
  · exact blind_xyy_to_xyz
  · exact fun _ _ _ => rfl
  · exact blind_xyy_to_cieluv
  · exact blind_xyy_to_lab
  · exact blind_xyy_to_lch_ab
  · exact blind_xyy_to_lch_uv
  · exact fun _ _ _ => rfl
  · exact blind_cieluv_to_rgb_true
  · exact blind_cieluv_to_rgb_deep
  · exact blind_cieluv_to_grey_true
  · exact blind_cieluv_to_grey_deep
  · exact blind_cieluv_to_cmyk
  · exact blind_cieluv_to_hsi
  · exact blind_cieluv_to_hsv
  · exact blind_cieluv_to_hsl
  · exact blind_cieluv_to_hcy
  · exact blind_cieluv_to_xyz
  · exact blind_cieluv_to_xyy
  · exact fun _ _ _ => rfl
  · exact blind_cieluv_to_lab
  · exact blind_cieluv_to_lch_ab
  · exact blind_cieluv_to_lch_uv
  · exact fun _ _ _ => rfl
  · exact blind_lab_to_rgb_true
  · exact blind_lab_to_rgb_deep
  · exact blind_lab_to_grey_true
  · exact blind_lab_to_grey_deep
  · exact blind_lab_to_cmyk
  · exact blind_lab_to_hsi
  · exact blind_lab_to_hsv
  · exact blind_lab_to_hsl
  · exact blind_lab_to_hcy
  · exact blind_lab_to_xyz
  · exact blind_lab_to_xyy
  · exact blind_lab_to_cieluv
  · exact fun _ _ _ => rfl
  · exact blind_lab_to_lch_ab
  · exact blind_lab_to_lch_uv
  · exact fun _ _ _ => rfl
  · exact blind_lch_ab_to_rgb_true
  · exact blind_lch_ab_to_rgb_deep
  · exact blind_lch_ab_to_grey_true
  · exact blind_lch_ab_to_grey_deep
  · exact blind_lch_ab_to_cmyk
  · exact blind_lch_ab_to_hsi
  · exact blind_lch_ab_to_hsv
  · exact blind_lch_ab_to_hsl
  · exact blind_lch_ab_to_hcy
  · exact blind_lch_ab_to_xyz
  · exact blind_lch_ab_to_xyy
  · exact blind_lch_ab_to_cieluv
  · exact blind_lch_ab_to_lab
  · exact fun _ _ _ => rfl
  · exact blind_lch_ab_to_lch_uv
  · exact fun _ _ _ => rfl
  · exact blind_lch_uv_to_rgb_true
  · exact blind_lch_uv_to_rgb_deep
  · exact blind_lch_uv_to_grey_true
  · exact blind_lch_uv_to_grey_deep
  · exact blind_lch_uv_to_cmyk
  · exact blind_lch_uv_to_hsi
  · exact blind_lch_uv_to_hsv
  · exact blind_lch_uv_to_hsl
  · exact blind_lch_uv_to_hcy
  · exact blind_lch_uv_to_xyz
  · exact blind_lch_uv_to_xyy
  · exact blind_lch_uv_to_cieluv
  · exact blind_lch_uv_to_lab
  · exact blind_lch_uv_to_lch_ab
  · exact fun _ _ _ => rfl
  · exact fun _ _ _ => rfl
  · exact fun _ _ _ => rfl
  · exact fun _ _ _ => rfl
  · exact fun _ _ _ => rfl
  · exact fun _ _ _ => rfl
  · exact fun _ _ _ => rfl
  · exact fun _ _ _ => rfl
  · exact fun _ _ _ => rfl
  · exact fun _ _ _ => rfl
  · exact fun _ _ _ => rfl
  · exact fun _ _ _ => rfl
  · exact fun _ _ _ => rfl
  · exact fun _ _ _ => rfl
  · exact fun _ _ _ => rfl
  · exact fun _ _ _ => rfl
  · exact fun _ _ _ => rfl
  · exact fun _ _ _ => rfl

end Conv
