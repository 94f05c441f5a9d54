import Verif.Adapt
import Verif.AdjustLemmas
import Mathlib.Tactic.IntervalCases

/-! Helper lemmas about chromatic adaptation. -/

open Outcome Fl Prog ObjectSpec ConvSpec Combine

/-! ### 3×3 matrices in every arithmetic -/

namespace Mat
variable [FloatModel]

theorem allM_total {α : Type} {p : α → Outcome Bool} : ∀ l : List α, (∀ x ∈ l, ∃ b, p x = ok b) → ∃ b, allM p l = ok b
  | [], _ => ⟨true, rfl⟩
  | a :: l, h => by
    obtain ⟨b, e⟩ := h a (by simp)
    obtain ⟨b', e'⟩ := allM_total l fun x hx => h x (by simp [hx])
    cases b
    · exact ⟨false, by simp [allM, e]⟩
    · exact ⟨b', by simp [allM, e, e']⟩

theorem anyM_total {α : Type} {p : α → Outcome Bool} : ∀ l : List α, (∀ x ∈ l, ∃ b, p x = ok b) → ∃ b, anyM p l = ok b
  | [], _ => ⟨false, rfl⟩
  | a :: l, h => by
    obtain ⟨b, e⟩ := h a (by simp)
    obtain ⟨b', e'⟩ := anyM_total l fun x hx => h x (by simp [hx])
    cases b
    · exact ⟨b', by simp [anyM, e, e']⟩
    · exact ⟨true, by simp [anyM, e]⟩

theorem raw_three (a b c d e f g i j : Fl) (r k : ℕ) (hr : r < 3) (hk : k < 3) : ∃ x, raw [[a, b, c], [d, e, f], [g, i, j]] (r : ℤ) (k : ℤ) = ok x := by
  interval_cases r <;> interval_cases k <;> exact ⟨_, rfl⟩

theorem mul_three (a b c d e f g i j a' b' c' d' e' f' g' i' j' : Fl) :
    mul ⟨3, 3, [[a, b, c], [d, e, f], [g, i, j]]⟩ ⟨3, 3, [[a', b', c'], [d', e', f'], [g', i', j']]⟩ =
      ok ⟨3, 3, [[0 + a * a' + b * d' + c * g', 0 + a * b' + b * e' + c * i', 0 + a * c' + b * f' + c * j'],
        [0 + d * a' + e * d' + f * g', 0 + d * b' + e * e' + f * i', 0 + d * c' + e * f' + f * j'],
        [0 + g * a' + i * d' + j * g', 0 + g * b' + i * e' + j * i', 0 + g * c' + i * f' + j * j']]⟩ := by
  rfl

theorem ofSquare_three (a b c d e f g i j : Fl) : ofSquareList 3 [a, b, c, d, e, f, g, i, j] = ok ⟨3, 3, [[a, b, c], [d, e, f], [g, i, j]]⟩ := rfl
theorem ofList_three (a b c d e f g i j : Fl) : ofList 3 3 [a, b, c, d, e, f, g, i, j] = ok ⟨3, 3, [[a, b, c], [d, e, f], [g, i, j]]⟩ := rfl

theorem assign_three (m : Mat Fl) (a b c d e f g i j : Fl) :
    assign m ⟨3, 3, [[a, b, c], [d, e, f], [g, i, j]]⟩ = ok ⟨3, 3, [[a, b, c], [d, e, f], [g, i, j]]⟩ := rfl

theorem mk_shape3 (a b c d e f g i j : Fl) : Shape3 ⟨3, 3, [[a, b, c], [d, e, f], [g, i, j]]⟩ := ⟨rfl, rfl, rfl, by simp⟩

theorem calcDet_three (a b c d e f g i j : Fl) : ∃ x, calcDet 3 [[a, b, c], [d, e, f], [g, i, j]] = ok x := ⟨_, rfl⟩

theorem adjoint_three (a b c d e f g i j : Fl) : ∃ a' b' c' d' e' f' g' i' j', adjoint ⟨3, 3, [[a, b, c], [d, e, f], [g, i, j]]⟩ = ok ⟨3, 3, [[a', b', c'], [d', e', f'], [g', i', j']]⟩ :=
  ⟨_, _, _, _, _, _, _, _, _, rfl⟩

theorem det_three (a b c d e f g i j : Fl) : ∃ x, det ⟨3, 3, [[a, b, c], [d, e, f], [g, i, j]]⟩ = ok x := by
  have hraw := raw_three a b c d e f g i j
  have h1 : ∃ x, anyM (fun r => isRowNull ⟨3, 3, [[a, b, c], [d, e, f], [g, i, j]]⟩ r) ((List.range 3).map Int.ofNat) = ok x := by
    refine anyM_total _ fun r hr => ?_
    simp only [List.mem_map, List.mem_range] at hr
    obtain ⟨r, hr, rfl⟩ := hr
    rw [isRowNull, if_neg (by simp; omega)]
    refine allM_total _ fun k hk => ?_
    simp only [List.mem_map, List.mem_range] at hk
    obtain ⟨k, hk, rfl⟩ := hk
    obtain ⟨x, e⟩ := hraw r k hr hk
    exact ⟨_, by simp only [Int.ofNat_eq_natCast, e, ok_bind]; rfl⟩
  have h2 : ∃ x, anyM (fun r => isColumnNull ⟨3, 3, [[a, b, c], [d, e, f], [g, i, j]]⟩ r) ((List.range 3).map Int.ofNat) = ok x := by
    refine anyM_total _ fun r hr => ?_
    simp only [List.mem_map, List.mem_range] at hr
    obtain ⟨r, hr, rfl⟩ := hr
    rw [isColumnNull, if_neg (by simp; omega)]
    refine allM_total _ fun k hk => ?_
    simp only [List.mem_map, List.mem_range] at hk
    obtain ⟨k, hk, rfl⟩ := hk
    obtain ⟨x, e⟩ := hraw k r hk hr
    exact ⟨_, by simp only [Int.ofNat_eq_natCast, e, ok_bind]; rfl⟩
  have h3 : ∃ x, anyM (fun (i' : Nat) => anyM (fun (j' : Nat) => areRowsEqual ⟨3, 3, [[a, b, c], [d, e, f], [g, i, j]]⟩ i' j') (List.range' (i' + 1) (3 - (i' + 1)))) (List.range 3) = ok x := by
    refine anyM_total _ fun r hr => anyM_total _ fun r' hr' => ?_
    simp only [List.mem_range, List.mem_range'_1] at hr hr'
    rw [areRowsEqual, if_neg (by simp; omega)]
    refine allM_total _ fun k hk => ?_
    simp only [List.mem_map, List.mem_range] at hk
    obtain ⟨k, hk, rfl⟩ := hk
    obtain ⟨x, e⟩ := hraw r k hr hk
    obtain ⟨x', e'⟩ := hraw r' k (by omega) hk
    exact ⟨_, by simp only [Int.ofNat_eq_natCast, e, e', ok_bind]; rfl⟩
  have h4 : ∃ x, anyM (fun (i' : Nat) => anyM (fun (j' : Nat) => areColumnsEqual ⟨3, 3, [[a, b, c], [d, e, f], [g, i, j]]⟩ i' j') (List.range' (i' + 1) (3 - (i' + 1)))) (List.range 3) = ok x := by
    refine anyM_total _ fun r hr => anyM_total _ fun r' hr' => ?_
    simp only [List.mem_range, List.mem_range'_1] at hr hr'
    rw [areColumnsEqual, if_neg (by simp; omega)]
    refine allM_total _ fun k hk => ?_
    simp only [List.mem_map, List.mem_range] at hk
    obtain ⟨k, hk, rfl⟩ := hk
    obtain ⟨x, e⟩ := hraw k r hk hr
    obtain ⟨x', e'⟩ := hraw k r' hk (by omega)
    exact ⟨_, by simp only [Int.ofNat_eq_natCast, e, e', ok_bind]; rfl⟩
  obtain ⟨b1, e1⟩ := h1
  obtain ⟨b2, e2⟩ := h2
  obtain ⟨b3, e3⟩ := h3
  obtain ⟨b4, e4⟩ := h4
  obtain ⟨x, e5⟩ := calcDet_three a b c d e f g i j
  rw [det, if_neg (by simp), if_neg (by simp)]
  simp only [show Int.toNat 3 = 3 from rfl, e1, e2, e3, e4, e5, ok_bind]
  cases b1 <;> cases b2 <;> cases b3 <;> cases b4 <;> exact ⟨_, rfl⟩

theorem invert_three {m : Mat Fl} (h : m.Shape3) : ∃ i, m.invert = ok i ∧ i.Shape3 := by
  obtain ⟨a, b, c, d, e, f, g, i, j, rfl⟩ := shape3_get h
  obtain ⟨x, ex⟩ := det_three a b c d e f g i j
  obtain ⟨a', b', c', d', e', f', g', i', j', ea⟩ := adjoint_three a b c d e f g i j
  unfold invert
  rw [ex, ok_bind]
  split
  · exact ⟨_, rfl, h⟩
  · rw [ea, ok_bind]
    exact ⟨_, rfl, mk_shape3 _ _ _ _ _ _ _ _ _⟩

end Mat

/-! ### Redefining the white point -/

namespace SpaceDef
variable [FloatModel]

theorem calcMatrix_three (r g b w : V3) : ∃ m, calcMatrix r g b w = ok m ∧ m.Shape3 := by
  unfold calcMatrix
  rw [Mat.ofSquare_three, ok_bind]
  obtain ⟨i, ei, hi⟩ := Mat.invert_three (Mat.mk_shape3 r.x g.x b.x r.y g.y b.y r.z g.z b.z)
  obtain ⟨a1, b1, c1, d1, e1, f1, g1, i1, j1, rfl⟩ := Mat.shape3_get hi
  rw [ei, ok_bind, Mat.mulVec_shape3, ok_bind]
  simp only [Mat.vget, List.getElem?_cons_zero, List.getElem?_cons_succ, ok_bind]
  rw [Mat.ofSquare_three, ok_bind, Mat.mul_three]
  exact ⟨_, rfl, Mat.mk_shape3 _ _ _ _ _ _ _ _ _⟩

/-- The definition `d` is `s` with another white point. -/
structure Redefined (s : SpaceDef) (t : Nat) (d : SpaceDef) : Prop where
  red : d.red = s.red
  green : d.green = s.green
  blue : d.blue = s.blue
  white : d.white = some t
  gamma : d.gamma = s.gamma

theorem setWhitePoint_three (ws : WhiteStore) (s : SpaceDef) (t : Nat) :
    ∃ d, s.setWhitePoint ws (some t) = (d, ok ()) ∧ Redefined s t d ∧ d.transform.Shape3 ∧ d.inverse.Shape3 := by
  unfold setWhitePoint recompute
  simp only
  obtain ⟨m, em, hm⟩ := calcMatrix_three s.red s.green s.blue (ws t).tri
  rw [em]
  simp only
  have am : ∀ x, Mat.assign x m = ok m := by
    obtain ⟨a1, b1, c1, d1, e1, f1, g1, i1, j1, rfl⟩ := Mat.shape3_get hm
    intro x; exact Mat.assign_three _ _ _ _ _ _ _ _ _ _
  obtain ⟨i, ei, hi⟩ := Mat.invert_three hm
  have ai : ∀ x, Mat.assign x i = ok i := by
    obtain ⟨a1, b1, c1, d1, e1, f1, g1, i1, j1, rfl⟩ := Mat.shape3_get hi
    intro x; exact Mat.assign_three _ _ _ _ _ _ _ _ _ _
  simp only [am, ei, ai]
  exact ⟨_, rfl, ⟨rfl, rfl, rfl, rfl, rfl⟩, hm, hi⟩

theorem copy_usable {s : SpaceDef} (h : s.Usable) : s.copy = ok s := by
  obtain ⟨r, g, b, w, t, i, ga⟩ := s
  obtain ⟨-, -, h1, h2⟩ := h
  simp only at h1 h2
  obtain ⟨a1, b1, c1, d1, e1, f1, g1, i1, j1, rfl⟩ := Mat.shape3_get h1
  obtain ⟨a2, b2, c2, d2, e2, f2, g2, i2, j2, rfl⟩ := Mat.shape3_get h2
  rfl

end SpaceDef

/-! ### Running an adaptation -/

namespace Adapt
variable [FloatModel]

theorem xyz_color (x y z a : Fl) (sp : Option Nat) : IsColor .xyz (Color.mkXyz .xyz x y z a sp) := ⟨rfl, rfl, rfl, rfl, rfl⟩

/-- The world with a further colour space definition. -/
def extend (w : World) (a : Nat) (d : SpaceDef) : World := { w with spaces := Function.update w.spaces a d }

theorem extend_usable {w : World} {a : Nat} {d : SpaceDef} (h : d.Usable) : (extend w a d).Usable (some a) := ⟨a, rfl, by simpa [extend] using h⟩

/-- What an adaptation does when the target white point is not the one of the colour. -/
structure Run (f : Core) (a : Nat) (h : Heap) (i : Nat) (s : ColorType) (c : Color) (t : Nat) (x : Color) (v0 v1 v2 : Fl) (d : SpaceDef) (r : Color) (k : Nat) (h' : Heap) : Prop where
  run : adapt f a (some i) (some t) h = (ok (some k), h')
  toXyz : Val.to s .xyz h.world c = ok x
  xyz : IsColor .xyz x
  back : Val.to .xyz s (extend h.world a d) (Color.mkXyz .xyz v0 v1 v2 x.alpha (some a)) = ok r
  col : IsColor s r
  space : r.space = some a
  world : h'.world = extend h.world a d
  here : h'.colors[k]? = some r
  new : h.colors.length ≤ k
  others : ∀ j e, h.colors[j]? = some e → h'.colors[j]? = some (if j = i then Conv.effect s .xyz h.world c else e)

theorem effect_color {s : ColorType} {w : World} {c : Color} (h : IsColor s c) : IsColor s (Conv.effect s .xyz w c) ∧ (Conv.effect s .xyz w c).space = c.space := by
  by_cases hs : s = .rgbDeep
  · subst hs
    simp only [Conv.effect, Conv.viaXyz, Val.linearised]
    split
    · next d e =>
      simp only [Leaf.inverseGamma, bind_eq_ok, ok_inj] at e
      obtain ⟨sd, -, g, -, rfl⟩ := e
      exact ⟨⟨h.cls, h.ctype, by simpa [Color.applyGamma] using h.len, h.maxv, h.minv⟩, rfl⟩
    · exact ⟨h, rfl⟩
  · have : Conv.effect s .xyz w c = c := by cases s <;> first | rfl | exact absurd rfl hs
    rw [this]
    exact ⟨h, rfl⟩

omit [FloatModel] in
theorem whiteOf_some {w : World} {c : Color} {sp : Nat} (h : c.space = some sp) : whiteOf w c = ok (w.spaces sp).white := by
  simp [whiteOf, h, World.space]

theorem newDefinition_run {h : Heap} {sp a t : Nat} (hu : (h.world.spaces sp).Usable) {d : SpaceDef} (hd : (h.world.spaces sp).setWhitePoint h.world.whites (some t) = (d, ok ())) :
    newDefinition a (some sp) (some t) h = (ok (), ⟨extend h.world a d, h.colors⟩) := by
  simp only [newDefinition, World.space, SpaceDef.copy_usable hu, hd]
  rfl

/-- The conversion to XYZ at the beginning. -/
theorem toXyz_run {s : ColorType} (hs : s ≠ .undefined) {c x : Color} (hcol : IsColor s c) {h : Heap} {i : Nat} (hi : h.colors[i]? = some c) (ex : Val.to s .xyz h.world c = ok x) :
    ∃ q h1, Converter.to_xyz (some i) h = (ok (some q), h1) ∧ h1.world = h.world ∧ h1.colors[q]? = some x ∧ h.colors.length ≤ h1.colors.length ∧
      ∀ j e, h.colors[j]? = some e → h1.colors[j]? = some (if j = i then Conv.effect s .xyz h.world c else e) := by
  obtain ⟨q, h1, e1, c1⟩ := call_to hs (t := .xyz) (by simp) hcol hi ex
  refine ⟨q, h1, e1, c1.world, c1.here, c1.grows, ?_⟩
  by_cases hne : s = .xyz
  · subst hne
    rcases c1.fresh with hh | hh
    · obtain ⟨-, rfl, -, -⟩ := hh
      intro j e hj
      split
      · next hji =>
        subst hji
        rw [hj] at hi
        simpa [Conv.effect, Conv.keep] using hi ▸ hj
      · exact hj
    · exact absurd hcol.ctype hh.2
  · obtain ⟨_, _, _, _, _, _, _, h6, _⟩ := convert_result s .xyz hs (by simp) h i c hi hcol _ _ e1 hne
    exact h6

/-- The computation is undefined: so is the whole function. -/
theorem adapt_ub {s : ColorType} (hs : s ≠ .undefined) {c : Color} (hcol : IsColor s c) {h : Heap} {i : Nat} (hi : h.colors[i]? = some c) {sp u a t : Nat} (hsp : c.space = some sp)
    (hu : (h.world.spaces sp).Usable) (hwh : (h.world.spaces sp).white = some u) (hut : u ≠ t) {f : Core}
    (hf : ∀ x y z, f [x, y, z] (Conv.effect s .xyz h.world c).comps (h.world.whites u).tri (h.world.whites t).tri = .ub) : (adapt f a (some i) (some t) h).1 = .ub := by
  have hU : h.world.Usable c.space := ⟨sp, hsp, hu⟩
  obtain ⟨x, ex, hx, hxs⟩ := val_to_total (s := s) (t := .xyz) (w := h.world) hs (by simp) hcol (fun _ _ => hU)
  obtain ⟨x0, x1, x2, hxe⟩ := Conv.isColor_three rfl hx
  obtain ⟨q, h1, e1, w1, here1, len1, oth1⟩ := toXyz_run hs hcol hi ex
  have hi1 : h1.colors[i]? = some (Conv.effect s .xyz h.world c) := by simpa using oth1 i c hi
  set o := Conv.effect s .xyz h.world c with ho
  have hoc : IsColor s o ∧ o.space = c.space := effect_color hcol
  have hne : ¬ (some u = some t) := by simpa using hut
  simp only [adapt, Prog.bind_def, load_some hi, world, lift, whiteOf_some hsp, hwh, if_neg hne, e1, load_some here1, load_some hi1, w1,
    whiteOf_some (hoc.2.trans hsp), World.white]
  have ev' : f x.comps o.comps (h.world.whites u).tri (h.world.whites t).tri = .ub := by rw [hxe]; exact hf x0 x1 x2
  rw [ev']

/-- Everything up to the conversion back. -/
theorem adapt_most {s : ColorType} (hs : s ≠ .undefined) {c : Color} (hcol : IsColor s c) {h : Heap} {i : Nat} (hi : h.colors[i]? = some c) {sp u a t : Nat} (hsp : c.space = some sp)
    (hu : (h.world.spaces sp).Usable) (hwh : (h.world.spaces sp).white = some u) (hut : u ≠ t) {f : Core}
    (hf : ∀ x y z, ∃ v0 v1 v2, f [x, y, z] (Conv.effect s .xyz h.world c).comps (h.world.whites u).tri (h.world.whites t).tri = ok [v0, v1, v2]) :
    ∃ (x : Color) (v0 v1 v2 : Fl) (d : SpaceDef) (h1 : Heap), f x.comps (Conv.effect s .xyz h.world c).comps (h.world.whites u).tri (h.world.whites t).tri = ok [v0, v1, v2] ∧
      (h.world.spaces sp).setWhitePoint h.world.whites (some t) = (d, ok ()) ∧ SpaceDef.Redefined (h.world.spaces sp) t d ∧ d.Usable ∧
      Val.to s .xyz h.world c = ok x ∧ IsColor .xyz x ∧ h1.world = h.world ∧ h.colors.length ≤ h1.colors.length ∧
      (∀ j e, h.colors[j]? = some e → h1.colors[j]? = some (if j = i then Conv.effect s .xyz h.world c else e)) ∧
      adapt f a (some i) (some t) h =
        Converter.convertTo (some h1.colors.length) s ⟨extend h.world a d, h1.colors ++ [Color.mkXyz .xyz v0 v1 v2 x.alpha (some a)]⟩ := by
  have hU : h.world.Usable c.space := ⟨sp, hsp, hu⟩
  obtain ⟨x, ex, hx, hxs⟩ := val_to_total (s := s) (t := .xyz) (w := h.world) hs (by simp) hcol (fun _ _ => hU)
  obtain ⟨x0, x1, x2, hxe⟩ := Conv.isColor_three rfl hx
  obtain ⟨v0, v1, v2, ev⟩ := hf x0 x1 x2
  obtain ⟨d, ed, hd, hd1, hd2⟩ := SpaceDef.setWhitePoint_three h.world.whites (h.world.spaces sp) t
  have hdu : d.Usable := ⟨by rw [hd.white]; simp, by rw [hd.gamma]; exact hu.gamma, hd1, hd2⟩
  obtain ⟨q, h1, e1, w1, here1, len1, oth1⟩ := toXyz_run hs hcol hi ex
  have hi1 : h1.colors[i]? = some (Conv.effect s .xyz h.world c) := by simpa using oth1 i c hi
  set o := Conv.effect s .xyz h.world c with ho
  have hoc : IsColor s o ∧ o.space = c.space := effect_color hcol
  refine ⟨x, v0, v1, v2, d, h1, by rw [hxe]; exact ev, ed, hd, hdu, ex, hx, w1, len1, oth1, ?_⟩
  have hne : ¬ (some u = some t) := by simpa using hut
  simp only [adapt, Prog.bind_def, load_some hi, world, lift, whiteOf_some hsp, hwh, if_neg hne, e1, load_some here1, load_some hi1, w1,
    whiteOf_some (hoc.2.trans hsp), World.white]
  have ev' : f x.comps o.comps (h.world.whites u).tri (h.world.whites t).tri = ok [v0, v1, v2] := by rw [hxe]; exact ev
  rw [ev']
  simp only [hoc.2, hsp]
  have en := newDefinition_run (h := h1) (a := a) (sp := sp) (t := t) (by rw [w1]; exact hu) (by rw [w1]; exact ed)
  rw [en]
  simp only [Mat.vget, List.getElem?_cons_zero, List.getElem?_cons_succ, Color.construct_xyz, alloc_run, hoc.1.ctype, w1]

theorem adapt_run {s : ColorType} (hs : Target s) {c : Color} (hcol : IsColor s c) {h : Heap} {i : Nat} (hi : h.colors[i]? = some c) {sp u a t : Nat} (hsp : c.space = some sp)
    (hu : (h.world.spaces sp).Usable) (hwh : (h.world.spaces sp).white = some u) (hut : u ≠ t) {f : Core}
    (hf : ∀ x y z, ∃ v0 v1 v2, f [x, y, z] (Conv.effect s .xyz h.world c).comps (h.world.whites u).tri (h.world.whites t).tri = ok [v0, v1, v2]) :
    ∃ x v0 v1 v2 d r k h', f x.comps (Conv.effect s .xyz h.world c).comps (h.world.whites u).tri (h.world.whites t).tri = ok [v0, v1, v2] ∧
      (h.world.spaces sp).setWhitePoint h.world.whites (some t) = (d, ok ()) ∧ SpaceDef.Redefined (h.world.spaces sp) t d ∧ d.Usable ∧
      Run f a h i s c t x v0 v1 v2 d r k h' := by
  obtain ⟨x, v0, v1, v2, d, h1, ev, ed, hd, hdu, ex, hx, w1, len1, oth1, e⟩ := adapt_most hs.1 hcol hi hsp hu hwh hut hf (a := a)
  obtain ⟨r, er, hr, hrs⟩ := val_to_total (s := .xyz) (t := s) (w := extend h.world a d) (by simp) hs.1 (xyz_color v0 v1 v2 x.alpha (some a)) (fun _ _ => extend_usable hdu)
  have hrs : r.space = some a := hrs
  obtain ⟨k, h2, e2, c2⟩ := convert_run (s := .xyz) (t := s) (h := ⟨extend h.world a d, h1.colors ++ [Color.mkXyz .xyz v0 v1 v2 x.alpha (some a)]⟩) (i := h1.colors.length) (by simp) hs
    (xyz_color v0 v1 v2 x.alpha (some a)) (by simp) er
  have hfr := c2.frame (by simp [Color.mkXyz])
  refine ⟨x, v0, v1, v2, d, r, k, h2, ev, ed, hd, hdu, e.trans e2, ex, hx, er, hr, hrs, c2.world, c2.here, ?_, ?_⟩
  · rcases c2.fresh with hh | hh
    · rw [hh.1]; exact len1
    · have := hh.1; simp at this; omega
  · intro j e hj
    refine hfr.2 j _ ?_
    have := oth1 j e hj
    rw [List.getElem?_append_left (List.getElem?_eq_some_iff.mp this).1]
    exact this

end Adapt
