import Verif.ConvRoam
import Verif.Props.Opacity
import Verif.Props.CieFormulas

/-!
# C131: conversions outside the CIE family do not look at the colour space; C65 for two colour spaces
-/

open Outcome Fl Prog ObjectSpec ConvSpec BlendSpec CalcSpec Calc OpacitySpec

section
variable [FloatModel]

namespace Conv

omit [FloatModel] in
theorem viaXyz_of {t : ColorType} (h : ¬ Cie t) : ¬ viaXyz t = true := fun hv => h ((viaXyz_iff t).mp hv)

theorem to_home {s t : ColorType} (hs : s ≠ .undefined) (ht : t ≠ .undefined) (cs : ¬ Cie s) (ct : ¬ Cie t) {w : World} {c d : Color} (h : Val.to s t w c = ok d) (w' : World) (sp : Option Nat) :
    Val.to s t w' { c with space := sp } = ok { d with space := sp } := by
  unfold Val.to at h ⊢
  by_cases hst : s = t
  · rw [if_pos hst] at h ⊢
    obtain rfl := ok_inj.mp h
    rfl
  · rw [if_neg hst] at h ⊢
    rw [roams_conv s t hs ht hst (viaXyz_of cs) (viaXyz_of ct) w w' c sp, h]
    rfl

/-- Outside the CIE family the components of the result depend on the components of the input only. -/
theorem to_comps {s t : ColorType} (hs : s ≠ .undefined) (ht : t ≠ .undefined) (cs : ¬ Cie s) (ct : ¬ Cie t) {w : World} {c d c' d' : Color} (hc : IsColor s c) (hd : IsColor s d)
    (e : c.comps = d.comps) (h : Val.to s t w c = ok c') (h' : Val.to s t w d = ok d') : c'.comps = d'.comps := by
  have h1 := to_home hs ht cs ct h w d.space
  obtain ⟨y, h2, e2⟩ := to_same (c := { c with space := d.space }) (d := d) ⟨hc.cls.trans hd.cls.symm, hc.ctype.trans hd.ctype.symm, e, hc.maxv.trans hd.maxv.symm, hc.minv.trans hd.minv.symm, rfl⟩ h1
  rw [h', ok_inj] at h2
  exact e2.comps.trans (by rw [h2])

end Conv

/-- C131: for any two types outside the CIE family the conversion exists, and it gives the same colour in every colour space (also without one), whatever else is in memory; only the colour space
is passed on.  For every rounding. -/
theorem C131_conversion (s t : ColorType) (hs : s ≠ .undefined) (ht : t ≠ .undefined) (cs : ¬ Cie s) (ct : ¬ Cie t) (w : World) (c : Color) (hc : IsColor s c) :
    ∃ d, Converts w c t d ∧ d.space = c.space ∧ ∀ (w' : World) (sp : Option Nat), Converts w' { c with space := sp } t { d with space := sp } := by
  obtain ⟨d, hd, -, hsp⟩ := val_to_total hs ht (w := w) hc (fun h => absurd h (by simp [cs, ct]))
  exact ⟨d, (converts_iff hs ht hc).mpr hd, hsp, fun w' sp => (converts_iff hs ht (c := { c with space := sp }) ⟨hc.cls, hc.ctype, hc.len, hc.maxv, hc.minv⟩).mpr (Conv.to_home hs ht cs ct hd w' sp)⟩

/- HSL and CMYK are two such types. -/
example : ¬ Cie .hsl ∧ ¬ Cie .cmyk := by simp [Cie]

/-- C65 for colours of any two colour spaces, outside the CIE family: the components of the sum do not depend on the order. -/
theorem C65_two_spaces (t : ColorType) (ht : t ≠ .undefined) (ct : ¬ Cie t) (w1 w2 : Fl) (h1 : Weight w1) (h2 : Weight w2) (ia : Bool) (w : World) (a b : Color) (ha : IsColor t a) (hb : IsColor t b) :
    ∃ r r', Yields (addOf t w1 w2 ia) w a b r ∧ Yields (addOf t w2 w1 ia) w b a r' ∧ r.comps = r'.comps := by
  obtain ⟨r, er, hy, -⟩ := addOf_yields ht (pass_of h1) (pass_of h2) ia (w := w) ha hb (fun hc => absurd hc ct)
  obtain ⟨r', er', hy', -⟩ := addOf_yields ht (pass_of h2) (pass_of h1) ia (w := w) hb ha (fun hc => absurd hc ct)
  refine ⟨r, r', hy, hy', ?_⟩
  obtain ⟨a', b', u, v, ea, eb, eu, cu, ev, -⟩ :=
    through_total (f := fun m => addVal m w1 w2 ia) ht (fun m hm hd a b ha hb => addVal_total hm hd w1 w2 ia ha hb) (w := w) ha hb (fun hc => absurd hc ct)
  obtain ⟨b2, a2, u', v', eb2, ea2, eu', cu', ev', -⟩ :=
    through_total (f := fun m => addVal m w2 w1 ia) ht (fun m hm hd a b ha hb => addVal_total hm hd w2 w1 ia ha hb) (w := w) hb ha (fun hc => absurd hc ct)
  rw [ea, ok_inj] at ea2
  rw [eb, ok_inj] at eb2
  subst ea2 eb2
  have hm := middle_defined ht
  have hmm : middle (middle t) = middle t := by cases t <;> rfl
  have cm : ¬ Cie (middle t) := by revert ct; cases t <;> simp [middle, Cie]
  have conv : ∀ {c c'}, IsColor t c → Val.to t (middle t) w c = ok c' → IsColor (middle t) c' := by
    intro c c' hc e
    obtain ⟨x, ex, cx, -⟩ := val_to_total ht hm (w := w) hc (fun h => absurd h (by simp [ct, cm]))
    rw [e, ok_inj] at ex
    exact ex ▸ cx
  have ca := conv ha ea
  have cb := conv hb eb
  set b2 : Color := { b' with space := a'.space } with hb2
  have cb2 : IsColor (middle t) b2 := ⟨cb.cls, cb.ctype, cb.len, cb.maxv, cb.minv⟩
  obtain ⟨p, ep, fp⟩ := addVal_total hmm hm w1 w2 true ca cb2
  have ep' := (addVal_swap (w1 := w1) (w2 := w2) (ia := true) ca cb2 rfl (Or.inl rfl)).symm.trans ep
  have comps : u.comps = u'.comps := by rw [addVal_comps ca cb ca cb2 rfl rfl eu ep, addVal_comps cb ca cb2 ca rfl rfl eu' ep']
  simp only [throughVal, ea, eb, eu, ev, ok_bind, ok_inj] at er
  simp only [throughVal, ea, eb, eu', ev', ok_bind, ok_inj] at er'
  rw [← er, ← er']
  exact Conv.to_comps hm ht cm ct cu cu' comps ev ev'

end

/-! ## C65 fails for LAB colours of two colour spaces -/

section
open FormulaSpec Formula
variable [FloatModel] [ExactModel]

theorem labF_lt {s t : ℝ} (hs : 0 ≤ s) (h : s < t) : labF s < labF t := by
  by_contra hn
  push Not at hn
  have mono : ∀ {x y : ℝ}, x ≤ y → labG x ≤ labG y := by
    intro x y hxy
    unfold labG
    split <;> split <;> rename_i h1 h2
    · exact pow_le_pow_left₀ (by linarith) hxy 3
    · linarith
    · nlinarith [mul_nonneg (sub_nonneg.mpr h2.le) (sub_nonneg.mpr h2.le), mul_nonneg (mul_nonneg (sub_nonneg.mpr h2.le) (sub_nonneg.mpr h2.le)) (sub_nonneg.mpr h2.le)]
    · nlinarith
  have := mono hn
  rw [labG_labF hs, labG_labF (hs.trans h.le)] at this
  linarith

/-- A memory with two predefined colour spaces, sRGB (white D65) at address 0 and Adobe wide gamut (white D50) at address 1. -/
theorem exists_two [StdSort] : ∃ w : World, w.Usable (some 0) ∧ w.Usable (some 1) ∧ HasWhite w (some 0) 0.9504 1 1.0888 ∧ HasWhite w (some 1) 0.9642 1 0.8251 := by
  obtain ⟨g, -, -⟩ := preset_curves .g2_2 (fun _ => ⟨none, 1⟩) 0
  let ws : WhiteStore := fun n => if n = 0 then SpacePreset.sRGB.white.create else SpacePreset.adobeWideGammutRGB.white.create
  have h0 : Function.update ws 0 SpacePreset.sRGB.white.create = ws := by
    funext n; by_cases h : n = 0 <;> simp [Function.update, ws, h]
  have h1 : Function.update ws 1 SpacePreset.adobeWideGammutRGB.white.create = ws := by
    funext n; by_cases h : n = 1 <;> simp [Function.update, ws, h]
  obtain ⟨s, -, reach0, r0, g0, w0⟩ := preset_create .sRGB ws 0 0
  obtain ⟨s', -, reach1, r1, g1, w1⟩ := preset_create .adobeWideGammutRGB ws 1 0
  rw [h0] at reach0 r0
  rw [h1] at reach1 r1
  refine ⟨⟨fun _ => ⟨none, 1⟩, fun _ => g, ws, fun n => if n = 0 then s else s'⟩, ⟨0, rfl, ?_⟩, ⟨1, rfl, ?_⟩, ⟨0, 0, rfl, w0, ?_⟩, ⟨1, 1, rfl, w1, ?_⟩⟩
  · exact SpaceDef.usable_of_regular reach0 r0 (by simp [g0])
  · exact SpaceDef.usable_of_regular reach1 r1 (by simp [g1])
  · simp [ws, WhitePreset.create, WhitePoint.make, SpacePreset.white, WhitePreset.literals]
  · simp [ws, WhitePreset.create, WhitePoint.make, SpacePreset.white, WhitePreset.literals]

/-- LAB colours with neutral components, as XYZ. -/
theorem lab_grey (w : World) (sp : Option Nat) (wx wz : ℝ) (hw : HasWhite w sp wx 1 wz) (x0 : 0 < wx) (x1 : wx < 2) (z0 : 0 < wz) (z1 : wz < 2) :
    ∃ d, Val.to .lab .xyz w (objL .lab [50, 0, 0] 1 sp) = ok d ∧ Is .xyz d [wx * (33 / 58) ^ 3, (33 / 58) ^ 3, wz * (33 / 58) ^ 3] ∧ d.malpha = fin 1 ∧ d.space = sp := by
  obtain ⟨d, h1, h2, h3, h4⟩ := C111_from_lab w (objL .lab [50, 0, 0] 1 sp) 1 rfl (by norm_num) (by norm_num) 50 0 0 ⟨⟨rfl, rfl, rfl, rfl, rfl⟩, rfl⟩ wx 1 wz hw
  refine ⟨d, (converts_iff (s := .lab) (by simp) (by simp) ⟨rfl, rfl, rfl, rfl, rfl⟩).mp h1, ?_, h3, h4⟩
  have e : labG ((50 + 16) / 116) = (33 / 58) ^ 3 := by
    rw [labG, if_pos (by norm_num)]; norm_num
  simp only [zero_div, add_zero, sub_zero, e, one_mul] at h2
  rwa [limit_of (by positivity) (by norm_num; linarith), limit_of (by positivity) (by norm_num), limit_of (by positivity) (by norm_num; linarith)] at h2

theorem lab_second (w : World) (X Y Z : ℝ) (sp : Option Nat) (X0 : 0 ≤ X) (Y0 : 0 ≤ Y) (Z0 : 0 ≤ Z) (wx wz : ℝ) (hw : HasWhite w sp wx 1 wz) (x0 : 0 < wx) (z0 : 0 < wz) {r : Color}
    (e : Val.to .xyz .lab w (objL .xyz [X, Y, Z] 1 sp) = ok r) : ∃ L b, r.comps = [fin L, fin (limit (-128) 128 (500 * (labF (X / wx) - labF Y))), fin b] := by
  obtain ⟨d, h1, h2, -⟩ := C111_to_lab w (objL .xyz [X, Y, Z] 1 sp) 1 rfl (by norm_num) (by norm_num) X Y Z ⟨⟨rfl, rfl, rfl, rfl, rfl⟩, rfl⟩ X0 Y0 Z0 wx 1 wz hw x0 (by norm_num) z0
  have := (converts_iff (s := .xyz) (by simp) (by simp) ⟨rfl, rfl, rfl, rfl, rfl⟩).mp h1
  rw [e, ok_inj] at this
  subst this
  rw [h2.comps]
  exact ⟨_, _, by rw [div_one]; rfl⟩

theorem lab_sum (x y z x' y' z' : ℝ) (sp sp' : Option Nat) (h : 0 ≤ x + x' ∧ x + x' ≤ 100 ∧ 0 ≤ y + y' ∧ y + y' ≤ 100 ∧ 0 ≤ z + z' ∧ z + z' ≤ 100) :
    ∃ al, addVal .xyz 1 1 false (objL .xyz [x, y, z] 1 sp) (objL .xyz [x', y', z'] 1 sp') = ok (objL .xyz [x + x', y + y', z + z'] al sp) ∧ al = 1 := by
  refine ⟨1, ?_, rfl⟩
  simp only [addVal, zip_all (t := .xyz) (linear 1 1) (a := objL .xyz [x, y, z] 1 sp) (b := objL .xyz [x', y', z'] 1 sp') ⟨rfl, rfl, rfl, rfl, rfl⟩ ⟨rfl, rfl, rfl, rfl, rfl⟩]
  rw [show (3 : Nat) = Color.count .xyz from rfl, zip_all (t := .xyz) (linear 1 1) (a := objL .xyz [x, y, z] 1 sp) (b := objL .xyz [x', y', z'] 1 sp') ⟨rfl, rfl, rfl, rfl, rfl⟩ ⟨rfl, rfl, rfl, rfl, rfl⟩, ok_bind]
  simp only [objL, List.map, List.zipWith, linear, one_def, mul_exact, add_exact, one_mul, alphaOf]
  rw [Color.construct_xyz, show (⟨.xyz, .xyz, [fin x, fin y, fin z], fin 1, Color.maxOf .xyz, Color.minOf .xyz, sp⟩ : Color).alpha = fin 1 from rfl]
  obtain ⟨h1, h2, h3, h4, h5, h6⟩ := h
  simp only [Bool.false_eq_true, if_false]
  rw [mkXyz_limit .xyz ⟨rfl, rfl⟩, limit_of h1 h2, limit_of h3 h4, limit_of h5 h6]
  rfl

/-- C65 fails for colours of the CIE family from two colour spaces: two neutral LAB colours, one relative to D65 and one relative to D50, added in the two orders.  The sum is reddish in one order and
greenish in the other. -/
theorem C65_two_spaces_violated [StdSort] : ∃ (w : World) (a b r r' : Color), IsColor .lab a ∧ IsColor .lab b ∧ w.Usable a.space ∧ w.Usable b.space ∧ a.comps = b.comps ∧ a.malpha = b.malpha ∧
    Yields (addOf .lab 1 1 false) w a b r ∧ Yields (addOf .lab 1 1 false) w b a r' ∧ ∃ L p q L' p' q', r.comps = [fin L, fin p, fin q] ∧ r'.comps = [fin L', fin p', fin q'] ∧ p' < 0 ∧ 0 < p := by
  obtain ⟨w, u0, u1, hw0, hw1⟩ := exists_two
  have W : Pass (1 : Fl) := pass_of ⟨1, one_def, by norm_num, by norm_num⟩
  have ca : ∀ sp, IsColor .lab (objL .lab [50, 0, 0] 1 sp) := fun sp => ⟨rfl, rfl, rfl, rfl, rfl⟩
  obtain ⟨r, er, hy, -⟩ := addOf_yields (t := .lab) (by simp) W W false (ca (some 0)) (ca (some 1)) (fun _ => ⟨u0, u1⟩)
  obtain ⟨r', er', hy', -⟩ := addOf_yields (t := .lab) (by simp) W W false (ca (some 1)) (ca (some 0)) (fun _ => ⟨u1, u0⟩)
  obtain ⟨d0, e0, i0, m0, s0⟩ := lab_grey w (some 0) _ _ hw0 (by norm_num) (by norm_num) (by norm_num) (by norm_num)
  obtain ⟨d1, e1, i1, m1, s1⟩ := lab_grey w (some 1) _ _ hw1 (by norm_num) (by norm_num) (by norm_num) (by norm_num)
  rw [objL_eq i0 m0, s0] at e0
  rw [objL_eq i1 m1, s1] at e1
  obtain ⟨_, f, rfl⟩ := lab_sum _ _ _ _ _ _ (some 0) (some 1) (show 0 ≤ 0.9504 * (33 / 58) ^ 3 + 0.9642 * (33 / 58) ^ 3 ∧ _ ∧ 0 ≤ (33 / 58) ^ 3 + (33 / 58) ^ 3 ∧ _ ∧
    0 ≤ 1.0888 * (33 / 58) ^ 3 + 0.8251 * (33 / 58) ^ 3 ∧ (_ : ℝ) ≤ 100 by norm_num)
  obtain ⟨_, f', rfl⟩ := lab_sum _ _ _ _ _ _ (some 1) (some 0) (show 0 ≤ 0.9642 * (33 / 58) ^ 3 + 0.9504 * (33 / 58) ^ 3 ∧ _ ∧ 0 ≤ (33 / 58) ^ 3 + (33 / 58) ^ 3 ∧ _ ∧
    0 ≤ 0.8251 * (33 / 58) ^ 3 + 1.0888 * (33 / 58) ^ 3 ∧ (_ : ℝ) ≤ 100 by norm_num)
  simp only [throughVal, middle, e0, e1, f, f', ok_bind] at er er'
  obtain ⟨L, q, h⟩ := lab_second w _ _ _ _ (by norm_num) (by norm_num) (by norm_num) _ _ hw0 (by norm_num) (by norm_num) er
  obtain ⟨L', q', h'⟩ := lab_second w _ _ _ _ (by norm_num) (by norm_num) (by norm_num) _ _ hw1 (by norm_num) (by norm_num) er'
  refine ⟨w, _, _, r, r', ca _, ca _, u0, u1, rfl, rfl, hy, hy', L, _, q, L', _, q', h, h', ?_, ?_⟩
  · have := labF_lt (s := (0.9642 * (33 / 58) ^ 3 + 0.9504 * (33 / 58) ^ 3) / 0.9642) (t := (33 / 58) ^ 3 + (33 / 58) ^ 3) (by norm_num) (by norm_num)
    rw [limit, max_lt_iff, min_lt_iff]
    exact ⟨by norm_num, Or.inr (by linarith)⟩
  · have := labF_lt (t := (0.9504 * (33 / 58) ^ 3 + 0.9642 * (33 / 58) ^ 3) / 0.9504) (s := (33 / 58) ^ 3 + (33 / 58) ^ 3) (by norm_num) (by norm_num)
    rw [limit, lt_max_iff, lt_min_iff]
    exact Or.inr ⟨by norm_num, by linarith⟩

end
