import Verif.Props.Adaptations2
import Verif.Props.CieFormulas

/-!
# Properties C79, C80, C97 and C100: chromatic adaptation of colours of every class

The methods work in XYZ.  The simplified methods, CAT02 and CMCCAT2000 treat every class through its XYZ value; full Bradford and CMCCAT97 also read the second component of the colour they are
given, which is the luminance only for XYZ colours.
-/

open Outcome Fl Prog ObjectSpec ConvSpec CombineSpec BlendSpec FormulaSpec AdaptSpec Matrix

namespace AdaptSpec
variable [FloatModel]

theorem core_total' (q : Method) (own : List Fl) (h : q.Normalises → 2 ≤ own.length) (x y z : Fl) (s d : V3) : ∃ v0 v1 v2, q.core [x, y, z] own s d = ok [v0, v1, v2] := by
  have two : ∀ own : List Fl, 2 ≤ own.length → ∃ a b l, own = a :: b :: l
    | [], h => by simp at h
    | [_], h => by simp at h
    | a :: b :: l, _ => ⟨a, b, l, rfl⟩
  rcases q with m | _ | ⟨f, la⟩ | ⟨f, la, lr⟩ | ⟨f, la⟩
  · exact Adapt.simplified_total m x y z own s d
  · obtain ⟨a, b, l, rfl⟩ := two own (h trivial)
    exact Adapt.bradfordCore_total x y z a b l s d
  · obtain ⟨a, b, l, rfl⟩ := two own (h trivial)
    exact Adapt.cmccat97Core_total f la x y z a b l s d
  · exact Adapt.cmccat2000Core_total f la lr x y z own s d
  · exact Adapt.cat02Core_total f la x y z own s d

/-- The methods that do not read a second component do not look at the colour itself. -/
theorem core_own (q : Method) (h : ¬ q.Normalises) (x own own' : List Fl) (s d : V3) : q.core x own s d = q.core x own' s d := by
  rcases q with m | _ | ⟨f, la⟩ | ⟨f, la, lr⟩ | ⟨f, la⟩
  · rfl
  · exact absurd trivial h
  · exact absurd trivial h
  · rfl
  · rfl

theorem class_run (q : Method) {h : Heap} {i : Nat} {s : ColorType} {c : Color} {sp u t : Nat} (hs : Setting h i s c sp u t) (ht : Combine.Target s) (hq : q.Normalises → Wide s) (a : Nat) :
    ∃ x v0 v1 v2 d r k h', q.core x.comps (Conv.effect s .xyz h.world c).comps (h.world.whites u).tri (h.world.whites t).tri = ok [v0, v1, v2] ∧
      (h.world.spaces sp).setWhitePoint h.world.whites (some t) = (d, ok ()) ∧ SpaceDef.Redefined (h.world.spaces sp) t d ∧ d.Usable ∧ Adapt.Run q.core a h i s c t x v0 v1 v2 d r k h' := by
  have hown := (Adapt.effect_color (w := h.world) hs.col).1.len
  exact Adapt.adapt_run (a := a) ht hs.col hs.here hs.space hs.usable hs.white hs.other
    (fun x y z => core_total' q _ (fun hn => by rw [hown]; exact wide_count ht.1 (hq hn)) x y z (h.world.whites u).tri (h.world.whites t).tri)

end AdaptSpec

section every
variable [FloatModel]

/-- C97 for every class: adapting a colour with a simplified method, CAT02 or CMCCAT2000 is the same as converting it to XYZ, adapting the XYZ colour and converting the result back to the class, where
both conversions use the definitions their colours carry.  Every arithmetic; wherever the colour and its XYZ value are stored. -/
theorem C97_any_class (q : Method) (hq : ¬ q.Normalises) (h : Heap) (i : Nat) (s : ColorType) (c : Color) (sp u t a : Nat) (hs : Setting h i s c sp u t) (hd : s ≠ .undefined)
    (hl : s ≠ .lchAb ∧ s ≠ .lchUv) (x : Color) (hx : Converts h.world c .xyz x) (g : Heap) (j : Nat) (hg : g.world = h.world) (hj : g.colors[j]? = some x) :
    ∃ k r h' k' y g', q.fn a (some i) (some t) h = (ok (some k), h') ∧ h'.colors[k]? = some r ∧ q.fn a (some j) (some t) g = (ok (some k'), g') ∧ g'.colors[k']? = some y ∧
      IsColor .xyz y ∧ y.space = some a ∧ y.alpha = x.alpha ∧ IsColor s r ∧ h'.world = g'.world ∧ Converts h'.world y s r := by
  obtain ⟨x', v0, v1, v2, d, r, k, h', h1, h2, h3, h4, h5⟩ := class_run q hs ⟨hd, hl⟩ (fun hn => absurd hn hq) a
  have hxx : x' = x := by
    have := (converts_iff hd (by simp) hs.col).mp hx
    rw [h5.toXyz, ok_inj] at this
    exact this
  subst hxx
  obtain ⟨x2, e2, hc2, hsp2⟩ := val_to_total (s := s) (t := .xyz) hd (by simp) hs.col (fun _ _ => ⟨sp, hs.space, hs.usable⟩)
  rw [h5.toXyz, ok_inj] at e2
  obtain ⟨gw, gc⟩ := g
  obtain rfl : gw = h.world := hg
  have hs' : Setting ⟨h.world, gc⟩ j .xyz x' sp u t := ⟨hj, h5.xyz, by rw [e2, hsp2, hs.space], hs.usable, hs.white, hs.other⟩
  obtain ⟨x'', w0, w1, w2, d', r', k', g', g1, g2, -, -, g5⟩ := class_run q hs' ⟨by simp, by simp, by simp⟩ (fun hn => absurd hn hq) a
  have hx3 : x' = x'' := by simpa [Val.to] using g5.toXyz
  subst hx3
  rw [core_own q hq _ _ (Conv.effect s .xyz h.world c).comps, h1] at g1
  have hv : v0 = w0 ∧ v1 = w1 ∧ v2 = w2 := by simpa using g1
  obtain ⟨rfl, rfl, rfl⟩ := hv
  rw [h2] at g2
  have hdd : d = d' := by simpa using g2
  subst hdd
  have hr : Color.mkXyz .xyz v0 v1 v2 x'.alpha (some a) = r' := by simpa [Val.to] using g5.back
  subst hr
  refine ⟨k, r, h', k', _, g', by rw [fn_eq]; exact h5.run, h5.here, by rw [fn_eq]; exact g5.run, g5.here, g5.col, rfl, rfl, h5.col, by rw [h5.world, g5.world], ?_⟩
  rw [h5.world]
  exact (converts_iff (s := .xyz) (by simp) hd g5.col).mpr h5.back

/-- The definition of the result. -/
theorem AdaptSpec.new_definition (q : Method) {h : Heap} {i : Nat} {s : ColorType} {c : Color} {sp u t a : Nat} (hs : Setting h i s c sp u t) (ht : Combine.Target s) (hq : q.Normalises → Wide s)
    {k : Nat} {h' : Heap} (e : q.fn a (some i) (some t) h = (ok (some k), h')) :
    ∃ d, (h.world.spaces sp).setWhitePoint h.world.whites (some t) = (d, ok ()) ∧ h'.world = Adapt.extend h.world a d := by
  obtain ⟨x', v0, v1, v2, d, r, k', h'', -, h2, -, -, h5⟩ := class_run q hs ht hq a
  rw [fn_eq, h5.run] at e
  simp only [Prod.mk.injEq] at e
  obtain ⟨-, rfl⟩ := e
  exact ⟨d, h2, h5.world⟩

/-- C97 to C102 for every class: whatever is known about the adaptation of the XYZ value carries over. -/
theorem C97_class_values (q : Method) (hq : ¬ q.Normalises) (h : Heap) (i : Nat) (s : ColorType) (c : Color) (sp u t a : Nat) (hs : Setting h i s c sp u t) (hd : s ≠ .undefined)
    (hl : s ≠ .lchAb ∧ s ≠ .lchUv) (x : Color) (hx : Converts h.world c .xyz x) (al : Fl) (y : Fin 3 → ℝ) (hy : Adapts q ⟨h.world, [x]⟩ 0 t al y) :
    ∃ k r h' z, q.fn a (some i) (some t) h = (ok (some k), h') ∧ h'.colors[k]? = some r ∧ IsColor s r ∧ IsXyz z y ∧ z.alpha = al ∧ z.space = some a ∧ Converts h'.world z s r := by
  obtain ⟨k, r, h', k', z, g', h1, h2, h3, h4, h5, h6, h7, h8, h9, h10⟩ := C97_any_class q hq h i s c sp u t a hs hd hl x hx ⟨h.world, [x]⟩ 0 rfl rfl
  obtain ⟨k2, r2, g2, e1, e2, -, e3, e4, -⟩ := hy a
  rw [h3] at e1
  simp only [Prod.mk.injEq, ok_inj, Option.some.injEq] at e1
  obtain ⟨rfl, rfl⟩ := e1
  rw [h4] at e2
  obtain rfl := Option.some.inj e2
  exact ⟨k, r, h', z, h1, h2, h8, e3, e4, h6, h10⟩

/-! ## The methods that divide by the second component -/

namespace AdaptSpec

/-- Not a number of the reals. -/
def Wild : Fl → Prop
  | fin _ => False
  | _ => True

theorem wild_div_zero (x : Fl) : Wild (x / fin 0) := by
  cases x with
  | nan => trivial
  | pinf => show Wild (if (0 : ℝ) = 0 then _ else _); simp [Wild]
  | ninf => show Wild (if (0 : ℝ) = 0 then _ else _); simp [Wild]
  | fin r =>
    rw [fin_div_zero]
    unfold infOf
    split_ifs <;> trivial

omit [FloatModel] in
theorem wild_inf (r : ℝ) : Wild (infOf r) := by
  unfold infOf
  split_ifs <;> trivial

theorem wild_div {x : Fl} (h : Wild x) (y : Fl) : Wild (x / y) := by
  cases x with
  | fin r => exact h.elim
  | nan => trivial
  | pinf =>
    cases y with
    | fin r => show Wild (if r = 0 then _ else _); split_ifs <;> first | trivial | exact wild_inf _
    | _ => trivial
  | ninf =>
    cases y with
    | fin r => show Wild (if r = 0 then _ else _); split_ifs <;> first | trivial | exact wild_inf _
    | _ => trivial

theorem wild_mul {x : Fl} (h : Wild x) (y : Fl) : Wild (x * y) := by
  cases x with
  | fin r => exact h.elim
  | nan => trivial
  | pinf => cases y <;> first | trivial | exact wild_inf _
  | ninf => cases y <;> first | trivial | exact wild_inf _

theorem wild_zero {x : Fl} (h : Wild x) : x * fin 0 = nan := by
  cases x with
  | fin r => exact h.elim
  | nan => rfl
  | pinf => exact infOf_zero
  | ninf => show infOf (-0) = nan; rw [neg_zero, infOf_zero]

/-- A second component of zero spoils everything. -/
theorem core_spoilt (q : Method) (hq : q.Normalises) (x y z o : Fl) (own : List Fl) (s d : V3) : q.core [x, y, z] (o :: fin 0 :: own) s d = ok [nan, nan, nan] := by
  have hv : Mat.vget (o :: fin 0 :: own) 1 = ok (fin 0) := rfl
  have h3 : ∀ a b c, Adapt.three [a, b, c] = ok (a, b, c) := fun _ _ _ => rfl
  have e1 : ∀ p r v : Fl, p * (r / fin 0 / v) * fin 0 = nan := fun p r v => wild_zero (by rw [mul_comm']; exact wild_mul (wild_div (wild_div_zero r) v) p)
  have e2 : ∀ r v : Fl, fin 0 * (r / fin 0 * v) = nan := fun r v => by rw [mul_comm']; exact wild_zero (wild_mul (wild_div_zero r) v)
  rcases q with m | _ | ⟨f, la⟩ | _ | _
  · exact hq.elim
  · show Adapt.bradfordCore _ _ _ _ = _
    obtain ⟨a, b, c, d', e, f, g, i, j, h1⟩ := Adapt.mat_three .bradford
    obtain ⟨a', b', c', d'', e', f', g', i', j', h2⟩ := Adapt.inv_three .bradford
    unfold Adapt.bradfordCore
    rw [h1, h2]
    simp only [ok_bind, Mat.mulVec_shape3, h3, hv, e1, mul_nan, add_nan, nan_add]
  · show Adapt.cmccat97Core f la _ _ _ _ = _
    obtain ⟨a, b, c, d', e, f', g, i, j, h1⟩ := Adapt.mat_three .cmccat97
    obtain ⟨a', b', c', d'', e', f'', g', i', j', h2⟩ := Adapt.inv_three .cmccat97
    unfold Adapt.cmccat97Core
    rw [h1, h2]
    simp only [ok_bind, Mat.mulVec_shape3, h3, hv, e2, mul_nan, add_nan, nan_add]
  · exact hq.elim
  · exact hq.elim

/-- The second component is zero; for RGB_DEEP also after linearisation, which takes place in the object (C96). -/
def SecondZero (w : World) (s : ColorType) (c : Color) : Prop := (Conv.effect s .xyz w c).comps[1]? = some (fin 0)

end AdaptSpec

/-- C97 and C100 fail for `bradford_adaptation` and `cmccat97_adaptation` for colours of every class whose second component is zero, whatever it stands for (green, saturation, a*, …): the result is
XYZ (100, 100, 100), converted back.  Every arithmetic, every pair of white points. -/
theorem C97_second_zero_violated (q : Method) (hq : q.Normalises) (h : Heap) (i : Nat) (s : ColorType) (c : Color) (sp u t a : Nat) (hs : Setting h i s c sp u t) (hd : s ≠ .undefined)
    (hl : s ≠ .lchAb ∧ s ≠ .lchUv) (hw : Wide s) (hz : SecondZero h.world s c) :
    ∃ k r h' z, q.fn a (some i) (some t) h = (ok (some k), h') ∧ h'.colors[k]? = some r ∧ IsXyz z (fun _ => 100) ∧ z.space = some a ∧ Converts h'.world z s r := by
  obtain ⟨x, v0, v1, v2, d, r, k, h', h1, h2, h3, h4, h5⟩ := class_run q hs ⟨hd, hl⟩ (fun _ => hw) a
  obtain ⟨x0, x1, x2, hx⟩ : ∃ x0 x1 x2, x.comps = [x0, x1, x2] := List.length_eq_three.mp h5.xyz.len
  obtain ⟨o, l, hown⟩ : ∃ o l, (Conv.effect s .xyz h.world c).comps = o :: fin 0 :: l := by
    unfold SecondZero at hz
    revert hz
    rcases (Conv.effect s .xyz h.world c).comps with _ | ⟨o, _ | ⟨p, l⟩⟩ <;> simp
  rw [hx, hown, core_spoilt q hq] at h1
  have hv : nan = v0 ∧ nan = v1 ∧ nan = v2 := by simpa using h1
  obtain ⟨rfl, rfl, rfl⟩ := hv
  refine ⟨k, r, h', Color.mkXyz .xyz nan nan nan x.alpha (some a), by rw [fn_eq]; exact h5.run, h5.here, ⟨Adapt.xyz_color _ _ _ _ _, ?_⟩, rfl, ?_⟩
  · have := Color.clamp_nan 100 0 (by norm_num)
    simp [Color.mkXyz, lit_def, zero_def, this]
  · rw [h5.world]
    exact (converts_iff (s := .xyz) (by simp) hd (Adapt.xyz_color _ _ _ _ _)).mpr h5.back

end every

section exact
variable [FloatModel] [ExactModel]

/-- A colour at address 0 of a memory of its own. -/
theorem AdaptSpec.Setting.alone {h : Heap} {i : Nat} {s : ColorType} {c x : Color} {sp u t : Nat} (hs : Setting h i s c sp u t) (hd : s ≠ .undefined) (hx : Converts h.world c .xyz x) :
    Setting ⟨h.world, [x]⟩ 0 .xyz x sp u t := by
  obtain ⟨x2, e2, hc2, hsp2⟩ := val_to_total (s := s) (t := .xyz) hd (by simp) hs.col (fun _ _ => ⟨sp, hs.space, hs.usable⟩)
  have := (converts_iff hd (by simp) hs.col).mp hx
  rw [e2, ok_inj] at this
  subst this
  exact ⟨rfl, hc2, by rw [hsp2, hs.space], hs.usable, hs.white, hs.other⟩

/-- C97 for every class: the XYZ value of the result, before it is converted back, is the published transform of the XYZ value of the colour, up to the error of the stored inverse. -/
theorem C97_class_published (m : AdaptMatrix) (h : Heap) (i : Nat) (s : ColorType) (c : Color) (sp u t a : Nat) (hs : Setting h i s c sp u t) (hd : s ≠ .undefined)
    (hl : s ≠ .lchAb ∧ s ≠ .lchUv) (x : Color) (hx : Converts h.world c .xyz x) (X S D : Fin 3 → ℝ) (hX : IsXyz x X) (hw : Whites h u t S D) (hn : ∀ j, (cone m).mulVec S j ≠ 0) :
    ∃ k r h' z y, (Method.simple m).fn a (some i) (some t) h = (ok (some k), h') ∧ h'.colors[k]? = some r ∧ IsColor s r ∧ IsXyz z y ∧ z.alpha = x.alpha ∧ z.space = some a ∧
      Converts h'.world z s r ∧ ∀ j, |y j - AdaptSpec.clip (published m S D X j)| ≤ tol m * size (published m S D X) := by
  obtain ⟨y, hy, he⟩ := C97_partial m ⟨h.world, [x]⟩ 0 x sp u t X S D (hs.alone hd hx) hX ⟨hw.source, hw.target⟩ hn
  obtain ⟨k, r, h', z, h1, h2, h3, h4, h5, h6, h7⟩ := C97_class_values (.simple m) (fun h => h) h i s c sp u t a hs hd hl x hx _ y hy
  exact ⟨k, r, h', z, y, h1, h2, h3, h4, h5, h6, h7, he⟩

/-- C79 for every class: a colour whose XYZ value is a multiple of the source white gets the same multiple of the target white, up to the error of the stored inverse. -/
theorem C79_class (m : AdaptMatrix) (h : Heap) (i : Nat) (s : ColorType) (c : Color) (sp u t a : Nat) (hs : Setting h i s c sp u t) (hd : s ≠ .undefined)
    (hl : s ≠ .lchAb ∧ s ≠ .lchUv) (x : Color) (hx : Converts h.world c .xyz x) (S D : Fin 3 → ℝ) (l : ℝ) (hX : IsXyz x fun j => l * S j) (hw : Whites h u t S D)
    (hn : ∀ j, (cone m).mulVec S j ≠ 0) (hD : ∀ j, 0 ≤ l * D j ∧ l * D j ≤ 100) :
    ∃ k r h' z y, (Method.simple m).fn a (some i) (some t) h = (ok (some k), h') ∧ h'.colors[k]? = some r ∧ IsColor s r ∧ IsXyz z y ∧ z.alpha = x.alpha ∧ z.space = some a ∧
      Converts h'.world z s r ∧ ∀ j, |y j - l * D j| ≤ tol m * size fun j => l * D j := by
  obtain ⟨y, hy, he⟩ := C79_partial m ⟨h.world, [x]⟩ 0 x sp u t S D l (hs.alone hd hx) hX ⟨hw.source, hw.target⟩ hn hD
  obtain ⟨k, r, h', z, h1, h2, h3, h4, h5, h6, h7⟩ := C97_class_values (.simple m) (fun h => h) h i s c sp u t a hs hd hl x hx _ y hy
  exact ⟨k, r, h', z, y, h1, h2, h3, h4, h5, h6, h7, he⟩

/-- C100 for every class: the XYZ value of black stays black with the methods that do not divide by a component. -/
theorem C100_class (q : Method) (hq : q.Admissible) (hq' : ¬ q.Normalises) (h : Heap) (i : Nat) (s : ColorType) (c : Color) (sp u t a : Nat) (hs : Setting h i s c sp u t) (hd : s ≠ .undefined)
    (hl : s ≠ .lchAb ∧ s ≠ .lchUv) (x : Color) (hx : Converts h.world c .xyz x) (S D : Fin 3 → ℝ) (hX : IsXyz x fun _ => 0) (hw : Whites h u t S D)
    (hn : ∀ j, (cone q.matrix).mulVec S j ≠ 0) (hD : D 1 ≠ 0) :
    ∃ k r h' z, q.fn a (some i) (some t) h = (ok (some k), h') ∧ h'.colors[k]? = some r ∧ IsColor s r ∧ IsXyz z (fun _ => 0) ∧ z.alpha = x.alpha ∧ z.space = some a ∧ Converts h'.world z s r :=
  C97_class_values q hq' h i s c sp u t a hs hd hl x hx _ _ (C100_partial q hq hq' ⟨h.world, [x]⟩ 0 x sp u t S D (hs.alone hd hx) hX ⟨hw.source, hw.target⟩ hn hD)

/-! ## RGB colours -/

namespace AdaptSpec

/-- Object `i` is an RGB_DEEP colour in a colour space with the primaries `P`, the white point `S` and the gamma curve `m`, about to be adapted to the white point `D`. -/
structure RgbSetting (h : Heap) (i : Nat) (c : Color) (sp u t m : Nat) (P : Matrix (Fin 3) (Fin 3) ℝ) (S D : Fin 3 → ℝ) : Prop where
  base : Setting h i .rgbDeep c sp u t
  whites : Whites h u t S D
  gamma : (h.world.spaces sp).gamma = some m
  reach : SpaceReach h.world.whites (h.world.spaces sp)
  regular : SpaceDef.Regular h.world.whites (h.world.spaces sp) P S
  source : ∀ j, 0 < S j ∧ S j ≤ 100
  target : ∀ j, 0 < D j ∧ D j ≤ 100
  inside : ∀ j, P⁻¹.mulVec D j ≠ 0

theorem new_regular (q : Method) {h : Heap} {i : Nat} {c : Color} {sp u t m a : Nat} {P : Matrix (Fin 3) (Fin 3) ℝ} {S D : Fin 3 → ℝ} (hs : RgbSetting h i c sp u t m P S D) {k : Nat} {h' : Heap}
    (e : q.fn a (some i) (some t) h = (ok (some k), h')) : SpaceReach h'.world.whites (h'.world.spaces a) ∧ SpaceDef.Regular h'.world.whites (h'.world.spaces a) P D ∧
      (h'.world.spaces a).gamma = some m ∧ h'.world.gammas = h.world.gammas ∧ h'.world.parts = h.world.parts := by
  obtain ⟨d, h2, hw⟩ := new_definition q hs.base ⟨by simp, by simp, by simp⟩ (fun _ => by simp [Wide]) e
  obtain ⟨d', h2', hd, -, -⟩ := SpaceDef.setWhitePoint_three h.world.whites (h.world.spaces sp) t
  rw [h2] at h2'
  have hdd : d = d' := by simpa using h2'
  subst hdd
  have hr := SpaceReach.setWhite (some t) hs.reach (by rw [h2])
  rw [h2] at hr
  rw [hw]
  simp only [Adapt.extend, Function.update_self]
  exact ⟨hr, ⟨by rw [hd.red]; exact hs.regular.red, by rw [hd.green]; exact hs.regular.green, by rw [hd.blue]; exact hs.regular.blue, ⟨t, hd.white, hs.whites.target⟩, hs.regular.det⟩,
    by rw [hd.gamma]; exact hs.gamma, trivial, trivial⟩

theorem mixed_const (P : Matrix (Fin 3) (Fin 3) ℝ) (hP : P.det ≠ 0) (S : Fin 3 → ℝ) (l : ℝ) : mixed P (P⁻¹.mulVec S) (fun _ => l) = fun j => l * S j := by
  have : P.mulVec (P⁻¹.mulVec S) = S := by rw [Matrix.mulVec_mulVec, Matrix.mul_nonsing_inv _ (isUnit_iff_ne_zero.mpr hP), Matrix.one_mulVec]
  conv_rhs => rw [← this]
  funext i
  simp [mixed, Matrix.mulVec, dotProduct, Fin.sum_univ_three]
  ring

theorem inv_mulVec (P : Matrix (Fin 3) (Fin 3) ℝ) (hP : P.det ≠ 0) (S : Fin 3 → ℝ) : P.mulVec (P⁻¹.mulVec S) = S := by
  rw [Matrix.mulVec_mulVec, Matrix.mul_nonsing_inv _ (isUnit_iff_ne_zero.mpr hP), Matrix.one_mulVec]

end AdaptSpec

/-- C79 for RGB colours: XYZ scaling leaves every grey of every colour space exactly as it is: the grey channels are not changed when the white point is. -/
theorem C79_rgb_grey (h : Heap) (i : Nat) (c : Color) (sp u t m a : Nat) (P : Matrix (Fin 3) (Fin 3) ℝ) (S D : Fin 3 → ℝ) (hs : RgbSetting h i c sp u t m P S D) (v l : ℝ) (hc : IsRgb c v v v)
    (l0 : 0 ≤ l) (l1 : l ≤ 1) (hi : (h.world.gammas m).inverse h.world.parts (fin v) = fin l) (hg : (h.world.gammas m).correct h.world.parts (fin l) = fin v) :
    ∃ k r h', Adapt.xyz_scale_adaptation a (some i) (some t) h = (ok (some k), h') ∧ h'.colors[k]? = some r ∧ IsRgb r v v v ∧ r.alpha = c.alpha := by
  have hlim : ∀ {T : Fin 3 → ℝ}, (∀ j, 0 < T j ∧ T j ≤ 100) → ∀ j, 0 ≤ l * T j ∧ l * T j ≤ 100 := fun hT j =>
    ⟨mul_nonneg l0 (hT j).1.le, by nlinarith [(hT j).1, (hT j).2]⟩
  obtain ⟨x, hx, hX, hxa, hxs⟩ := C112_to_xyz h.world c v v v hc sp m hs.base.space hs.gamma P S _ (fun _ => l) hs.reach hs.regular (inv_mulVec P hs.regular.det S) (fun _ => ⟨l0, l1⟩) hi hi hi
  rw [mixed_const P hs.regular.det] at hX
  have hlS : ∀ j, limit 0 100 (l * S j) = l * S j := fun j => Formula.limit_of (hlim hs.source j).1 (hlim hs.source j).2
  simp only [hlS] at hX
  obtain ⟨k, r, h', z, e1, e2, e3, e4, e5, e6, e7⟩ := C97_class_values (.simple .xyz_scale) (fun h => h) h i .rgbDeep c sp u t a hs.base (by simp) (by simp) x hx x.alpha (fun j => l * D j)
    (C79_xyz_scale ⟨h.world, [x]⟩ 0 x sp u t S D l (hs.base.alone (by simp) hx) ⟨hX.col, hX.comps⟩ ⟨hs.whites.source, hs.whites.target⟩ (fun j => (hs.source j).1.ne') (hlim hs.target))
  obtain ⟨g1, g2, g3, g4, g5⟩ := new_regular (.simple .xyz_scale) hs e1
  have hcl : FormulaSpec.clip l = l := by rw [FormulaSpec.clip, min_eq_right l1, max_eq_right l0]
  have hcv : FormulaSpec.clip v = v := by rw [FormulaSpec.clip, min_eq_right hc.r1, max_eq_right hc.r0]
  have hg' : (h'.world.gammas m).correct h'.world.parts (fin (FormulaSpec.clip l)) = fin v := by rw [g4, g5, hcl]; exact hg
  obtain ⟨r', f1, f2, f3, f4⟩ := C112_from_xyz h'.world z a m e6 g3 P D _ (fun _ => l) g1 g2 (inv_mulVec P hs.regular.det D) hs.inside (by rw [mixed_const P hs.regular.det]; exact ⟨e4.col, e4.comps⟩) v v v
    hg' hg' hg'
  rw [hcv] at f2
  have hrr : r = r' := by
    have a1 := (converts_iff (s := .xyz) (by simp) (by simp) e4.col).mp e7
    rw [(converts_iff (s := .xyz) (by simp) (by simp) e4.col).mp f1, ok_inj] at a1
    exact a1.symm
  subst hrr
  exact ⟨k, r, h', e1, e2, ⟨f2.col, f2.comps, hc.r0, hc.r1, hc.r0, hc.r1, hc.r0, hc.r1⟩, by rw [f3, e5, hxa]⟩

/-- C97 for RGB colours fails with full Bradford and CMCCAT97: every colour without green (red, blue, magenta, …) becomes white when adapted to the equal energy white point (1, 1, 1), in every colour
space with every gamma curve that keeps 0 and 1. -/
theorem C97_no_green_violated (q : Method) (hq : q.Normalises) (h : Heap) (i : Nat) (c : Color) (sp u t m a : Nat) (P : Matrix (Fin 3) (Fin 3) ℝ) (S : Fin 3 → ℝ)
    (hs : RgbSetting h i c sp u t m P S fun _ => 1) (r b : ℝ) (hc : IsRgb c r 0 b) (hi : (h.world.gammas m).inverse h.world.parts (fin 0) = fin 0)
    (hg : (h.world.gammas m).correct h.world.parts (fin 1) = fin 1) :
    ∃ k d h', q.fn a (some i) (some t) h = (ok (some k), h') ∧ h'.colors[k]? = some d ∧ IsRgb d 1 1 1 := by
  have hz : SecondZero h.world .rgbDeep c := by
    have h0 : Color.clamp (fin 0) 1 0 = fin 0 := Conv.clamp_unit le_rfl (by norm_num)
    simp only [SecondZero, Conv.effect, Conv.viaXyz, Val.linearised, Leaf.inverseGamma, World.space, World.gamma, hs.base.space, hs.gamma, ok_bind, Color.applyGamma, hc.comps, List.map_cons,
      List.getElem?_cons_succ, List.getElem?_cons_zero, hi, hc.col.maxv, hc.col.minv]
    exact congrArg some h0
  obtain ⟨k, d, h', z, e1, e2, e3, e4, e5⟩ := C97_second_zero_violated q hq h i .rgbDeep c sp u t a hs.base (by simp) (by simp) (by simp [Wide]) hz
  obtain ⟨g1, g2, g3, g4, g5⟩ := new_regular q hs e1
  have hcl : FormulaSpec.clip 100 = 1 := by norm_num [FormulaSpec.clip]
  have hc1 : FormulaSpec.clip 1 = 1 := by norm_num [FormulaSpec.clip]
  have hg' : (h'.world.gammas m).correct h'.world.parts (fin (FormulaSpec.clip 100)) = fin 1 := by rw [g4, g5, hcl]; exact hg
  obtain ⟨r', f1, f2, f3, f4⟩ := C112_from_xyz h'.world z a m e4 g3 P _ _ (fun _ => 100) g1 g2 (inv_mulVec P hs.regular.det _) hs.inside
    (by rw [mixed_const P hs.regular.det]; simpa using (⟨e3.col, e3.comps⟩ : Is .xyz z [100, 100, 100])) 1 1 1 hg' hg' hg'
  rw [hc1] at f2
  have hrr : d = r' := by
    have a1 := (converts_iff (s := .xyz) (by simp) (by simp) e3.col).mp e5
    rw [(converts_iff (s := .xyz) (by simp) (by simp) e3.col).mp f1, ok_inj] at a1
    exact a1.symm
  subst hrr
  exact ⟨k, d, h', e1, e2, ⟨f2.col, f2.comps, by norm_num, by norm_num, by norm_num, by norm_num, by norm_num, by norm_num⟩⟩

/-! ## The predefined colour spaces -/

/-- A memory with a predefined colour space and gamma curve, a further white point (1, 1, 1) at address 1 and an RGB_DEEP colour. -/
theorem AdaptSpec.exists_rgb [StdSort] (p : SpacePreset) (gp : GammaPreset) (r g b : ℝ) (hr : 0 ≤ r ∧ r ≤ 1 ∧ 0 ≤ g ∧ g ≤ 1 ∧ 0 ≤ b ∧ b ≤ 1) :
    ∃ h : Heap, RgbSetting h 0 (rgbOf r g b 1 (some 0)) 0 0 1 0 (presetPrimaries p) (presetWhite p) (fun _ => 1) ∧ IsRgb (rgbOf r g b 1 (some 0)) r g b ∧
      UnitEnds ((h.world.gammas 0).correct h.world.parts) ∧ UnitEnds ((h.world.gammas 0).inverse h.world.parts) := by
  obtain ⟨gm, hgm, c1, i1⟩ := C29_ends gp (fun _ => ⟨none, 1⟩) 0
  obtain ⟨s, hs, hreach, hreg, hsg, hsw⟩ := preset_create p (fun _ => ⟨⟨1, 1, 1⟩, ⟨fin 1, fin 1, fin 1⟩⟩) 0 0
  have hc : IsRgb (rgbOf r g b 1 (some 0)) r g b := isRgb_rgbOf _ _ hr
  refine ⟨⟨⟨(gp.create (fun _ => ⟨none, 1⟩) 0).1, fun _ => gm, Function.update (fun _ => ⟨⟨1, 1, 1⟩, ⟨fin 1, fin 1, fin 1⟩⟩) 0 p.white.create, fun _ => s⟩, [rgbOf r g b 1 (some 0)]⟩,
    ⟨⟨rfl, hc.col, rfl, SpaceDef.usable_of_regular hreach hreg (by simp [hsg]), hsw, by simp⟩, ⟨?_, ?_⟩, hsg, hreach, hreg, ?_, ?_, ?_⟩, hc, c1, i1⟩
  · obtain ⟨q, h1, h2⟩ := hreg.white
    rw [hsw] at h1
    obtain rfl := Option.some.inj h1
    exact h2
  · simp
  · intro j
    cases p <;> fin_cases j <;> norm_num [presetWhite, SpacePreset.white, WhitePreset.literals]
  · intro j
    norm_num
  · have hd := (preset_det p).ne'
    have : (presetPrimaries p)⁻¹.mulVec (fun _ => (1 : ℝ)) = fun i => ((presetPrimaries p).updateCol i fun _ => 1).det / (presetPrimaries p).det := by
      conv_lhs => rw [← weights_cramer (presetPrimaries p) (fun _ => 1) hd]
      rw [Matrix.mulVec_mulVec, Matrix.nonsing_inv_mul _ (isUnit_iff_ne_zero.mpr hd), Matrix.one_mulVec]
    intro j
    rw [this]
    refine div_ne_zero ?_ hd
    cases p <;> fin_cases j <;> rw [Matrix.det_fin_three] <;> simp [presetPrimaries, ccMat, SpacePreset.primaries, Matrix.updateCol_apply] <;> norm_num

/-- Case: red, in every predefined colour space with every predefined gamma curve, becomes white with full Bradford and CMCCAT97; white stays white with XYZ scaling. -/
example [StdSort] (p : SpacePreset) (gp : GammaPreset) (q : Method) (hq : q.Normalises) :
    (∃ h k d h', RgbSetting h 0 (rgbOf 1 0 0 1 (some 0)) 0 0 1 0 (presetPrimaries p) (presetWhite p) (fun _ => 1) ∧ q.fn 7 (some 0) (some 1) h = (ok (some k), h') ∧ h'.colors[k]? = some d ∧ IsRgb d 1 1 1) ∧
    ∃ h k d h', RgbSetting h 0 (rgbOf 1 1 1 1 (some 0)) 0 0 1 0 (presetPrimaries p) (presetWhite p) (fun _ => 1) ∧
      Adapt.xyz_scale_adaptation 7 (some 0) (some 1) h = (ok (some k), h') ∧ h'.colors[k]? = some d ∧ IsRgb d 1 1 1 := by
  obtain ⟨h, hs, hc, g1, g2⟩ := exists_rgb p gp 1 0 0 (by norm_num)
  obtain ⟨k, d, h', e⟩ := C97_no_green_violated q hq h 0 _ 0 0 1 0 7 _ _ hs 1 0 hc g2.1 g1.2.1
  obtain ⟨f, fs, fc, g1, g2⟩ := exists_rgb p gp 1 1 1 (by norm_num)
  obtain ⟨k', d', f', e1, e2, e3, -⟩ := C79_rgb_grey f 0 _ 0 0 1 0 7 _ _ _ fs 1 1 fc (by norm_num) le_rfl g2.2.1 g1.2.1
  exact ⟨⟨h, k, d, h', hs, e⟩, f, k', d', f', fs, e1, e2, e3⟩

/-- Case: the XYZ value of an RGB white, all simplified methods. -/
example [StdSort] (p : SpacePreset) (gp : GammaPreset) (m : AdaptMatrix) : ∃ h k r h' z y, RgbSetting h 0 (rgbOf 1 1 1 1 (some 0)) 0 0 1 0 (presetPrimaries p) (presetWhite p) (fun _ => 1) ∧
    (Method.simple m).fn 7 (some 0) (some 1) h = (ok (some k), h') ∧ h'.colors[k]? = some r ∧ IsXyz z y ∧ Converts h'.world z .rgbDeep r ∧ ∀ j, |y j - 1| ≤ 3e-5 := by
  obtain ⟨h, hs, hc, g1, g2⟩ := exists_rgb p gp 1 1 1 (by norm_num)
  obtain ⟨x, hx, hX, -, -⟩ := C112_to_xyz h.world _ 1 1 1 hc 0 0 hs.base.space hs.gamma _ _ _ (fun _ => 1) hs.reach hs.regular (inv_mulVec _ hs.regular.det _) (fun _ => by norm_num) g2.2.1 g2.2.1 g2.2.1
  rw [mixed_const _ hs.regular.det] at hX
  have hlim : ∀ j, FormulaSpec.limit 0 100 (1 * presetWhite p j) = 1 * presetWhite p j := fun j => Formula.limit_of (by linarith [(hs.source j).1]) (by linarith [(hs.source j).2])
  simp only [hlim] at hX
  obtain ⟨s, e, -, hn⟩ := C79_presets m p.white
  have hse : s = presetWhite p := by
    simp only [WhitePreset.create, WhitePoint.make, lit_exact, V3.mk.injEq, Fl.fin.injEq] at e
    funext j
    fin_cases j
    · exact e.1.symm
    · exact e.2.1.symm
    · exact e.2.2.symm
  subst hse
  obtain ⟨k, r, h', z, y, e1, e2, -, e4, -, -, e7, e8⟩ := C79_class m h 0 .rgbDeep _ 0 0 1 7 hs.base (by simp) (by simp) x hx _ _ 1 ⟨hX.col, hX.comps⟩ hs.whites hn (by norm_num)
  refine ⟨h, k, r, h', z, y, hs, e1, e2, e4, e7, fun j => ?_⟩
  have := e8 j
  have ht : tol m ≤ 1e-5 := by cases m <;> norm_num [tol]
  norm_num [size] at this ⊢
  norm_num at ht
  linarith

end exact
