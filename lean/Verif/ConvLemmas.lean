import Verif.Converter
import Verif.SpaceLemmas
import Verif.Props.Objects

/-! Helper lemmas about conversions. -/

open Outcome Fl Prog ObjectSpec

/-- `c` is an object of class `t` with the limits of that class; the components are arbitrary floats. -/
structure IsColor (t : ColorType) (c : Color) : Prop where
  cls : c.cls = t
  ctype : c.ctype = t
  len : c.comps.length = Color.count t
  maxv : c.maxv = Color.maxOf t
  minv : c.minv = Color.minOf t

/-- A 3×3 matrix. -/
structure Mat.Shape3 (m : Mat Fl) : Prop where
  rows : m.rows = 3
  cols : m.cols = 3
  len : m.vals.length = 3
  row : ∀ r ∈ m.vals, r.length = 3

/-- A colour space definition with 3×3 matrices, a white point and a gamma curve. -/
structure SpaceDef.Usable (s : SpaceDef) : Prop where
  white : s.white ≠ none
  gamma : s.gamma ≠ none
  transform : s.transform.Shape3
  inverse : s.inverse.Shape3

/-- The colour points to a usable colour space definition. -/
def World.Usable (w : World) (sp : Option Nat) : Prop := ∃ s, sp = some s ∧ (w.spaces s).Usable

namespace Mat

theorem shape3_get {m : Mat Fl} (h : m.Shape3) : ∃ a b c d e f g i j : Fl, m = ⟨3, 3, [[a, b, c], [d, e, f], [g, i, j]]⟩ := by
  obtain ⟨r, c, v⟩ := m
  obtain ⟨h1, h2, h3, h4⟩ := h
  simp only at h1 h2 h3 h4
  subst h1 h2
  match v, h3, h4 with
  | [r0, r1, r2], _, h4 =>
    have e0 := h4 r0 (by simp)
    have e1 := h4 r1 (by simp)
    have e2 := h4 r2 (by simp)
    match r0, e0, r1, e1, r2, e2 with
    | [a, b, c], _, [d, e, f], _, [g, i, j], _ => exact ⟨a, b, c, d, e, f, g, i, j, rfl⟩

theorem mulVec_shape3 [FloatModel] (a b c d e f g i j x y z : Fl) : mulVec ⟨3, 3, [[a, b, c], [d, e, f], [g, i, j]]⟩ [x, y, z] =
    ok [0 + a * x + b * y + c * z, 0 + d * x + e * y + f * z, 0 + g * x + i * y + j * z] := by
  rfl

end Mat

namespace Conv
variable [FloatModel]

theorem getComponent_of {c : Color} {i : Int} {x : Fl} (h0 : 0 ≤ i) (h : c.comps[i.toNat]? = some x) : c.getComponent i = ok x := by
  have hl : i.toNat < c.comps.length := by
    by_contra hn; rw [List.getElem?_eq_none (by omega)] at h; simp at h
  have hn : ¬ (i < 0 ∨ (c.comps.length : Int) ≤ i) := by omega
  rw [Color.getComponent, if_neg hn, h]

theorem getComponent_ok {c : Color} {i : Int} {x : Fl} (h : c.getComponent i = ok x) : 0 ≤ i ∧ c.comps[i.toNat]? = some x := by
  unfold Color.getComponent throwNewRange at h
  split at h
  · simp at h
  · split at h
    · rename_i y hy
      rw [ok_inj] at h; subst h
      exact ⟨by omega, hy⟩
    · simp at h

/-- A new object of class `t` with all components in range. -/
structure Fresh (t : ColorType) (sp : Option Nat) (c : Color) : Prop where
  col : IsColor t c
  rng : ComponentsInRange c
  lum : t = .lab ∨ t = .cieluv → ∀ x, c.comps[0]? = some x → InRange 0 100 x
  space : c.space = sp

/-- What a component constructor returns. -/
theorem construct_result {t : ColorType} (ht : t ≠ .undefined) {vs : List Fl} {a : Fl} {sp : Option Nat} {c : Color}
    (hl : vs.length = Color.count t) (e : Color.construct t vs a sp = ok c) : Fresh t sp c := by
  obtain ⟨h1, h2, h3, _⟩ := ObjectLemmas.construct_inv ht hl e
  have hc : c.ctype = t := by
    rcases h1.cls with h | h
    · rw [← h, h2]
    · rw [h2] at h; exact absurd h ht
  refine ⟨⟨h2, hc, hc ▸ h1.len, hc ▸ h1.maxv, hc ▸ h1.minv⟩, h1.rng, ?_, h3⟩
  rintro (rfl | rfl) x hx
  · match vs, hl with
    | [p, q, r], _ =>
      rw [Color.construct_lab, ok_inj] at e
      subst e
      simp only [Color.mkLab, List.getElem?_cons_zero, Option.some.injEq] at hx
      subst hx
      simpa using Color.clamp_inRange p (mn := 0) (mx := 100) (by norm_num)
  · match vs, hl with
    | [p, q, r], _ =>
      rw [Color.construct_cieluv, ok_inj] at e
      subst e
      simp only [Color.mkCieluv, List.getElem?_cons_zero, Option.some.injEq] at hx
      subst hx
      simpa using Color.clamp_inRange p (mn := 0) (mx := 100) (by norm_num)

theorem construct_alpha {t : ColorType} (ht : t ≠ .undefined) {vs : List Fl} {a : Fl} {sp : Option Nat} {c : Color}
    (hl : vs.length = Color.count t) (e : Color.construct t vs a sp = ok c) :
    c.malpha = if Color.scalesAlpha t then Color.clamp (a / 255) 1 0 else a := by
  have hinv := ObjectLemmas.construct_inv ht hl e
  by_cases hs : Color.scalesAlpha t = true
  · rw [if_pos hs]
    simp only [Color.construct, Outcome.bind_eq_ok] at e
    obtain ⟨d, hd, e⟩ := e
    have h2 := (ObjectLemmas.setChannels_inv t ht vs 0 _ d rfl rfl (by simp [Color.base]) rfl rfl (by simp) (by simpa using hl) hd).2.1
    rw [if_pos hs, pure_eq, ok_inj] at e
    subst e
    simp only [Color.setAlpha, h2, hs, if_true]
  · rw [if_neg hs]
    exact hinv.2.2.2 (by simpa using hs)

theorem setChannel_total (c : Color) (i : Nat) (v : Fl) (h : i < c.comps.length) : ∃ c', c.setChannel i v = ok c' := by
  unfold Color.setChannel Color.setHue Color.setComponent Color.setComponentLim
  split <;> (rw [if_neg (by push Not; constructor <;> omega)]; exact ⟨_, rfl⟩)

theorem setChannels_total : ∀ (vs : List Fl) (i : Nat) (c : Color), i + vs.length ≤ c.comps.length →
    ∃ c', Color.setChannels i vs c = ok c' := by
  intro vs
  induction vs with
  | nil => intro i c _; exact ⟨c, rfl⟩
  | cons v vs ih =>
    intro i c h
    simp only [List.length_cons] at h
    obtain ⟨d, hd⟩ := setChannel_total c i v (by omega)
    have hl := (ObjectLemmas.setChannel_frame hd).2.2.2.2.2.2.1
    obtain ⟨e, he⟩ := ih (i + 1) d (by omega)
    exact ⟨e, by simp only [Color.setChannels, hd, ok_bind, he]⟩

theorem construct_total (t : ColorType) {vs : List Fl} (a : Fl) (sp : Option Nat) (hl : vs.length = Color.count t) :
    ∃ c, Color.construct t vs a sp = ok c := by
  obtain ⟨d, hd⟩ := setChannels_total vs 0
    { Color.base a sp (Color.count t) (Color.maxOf t) (Color.minOf t) with cls := t, ctype := t } (by simp [Color.base, hl])
  exact ⟨_, by simp only [Color.construct, hd, ok_bind]; rfl⟩

theorem setAlpha_result {t : ColorType} {c : Color} {sp : Option Nat} (a : Fl) (h : Fresh t sp c) : Fresh t sp (c.setAlpha a) :=
  ⟨⟨h.col.cls, h.col.ctype, h.col.len, h.col.maxv, h.col.minv⟩, h.rng, h.lum, h.space⟩

/-- The types whose conversions go through XYZ. -/
def viaXyz : ColorType → Bool
  | .xyz => true
  | .xyy => true
  | .cieluv => true
  | .lab => true
  | .lchAb => true
  | .lchUv => true
  | _ => false

/-- What holds of a value-level conversion from `s` to `t`: it succeeds on every object of class `s` (whose colour space must be usable if one of
the types is a CIE type), and whatever it returns, for whatever input, is an object of class `t` with components in range and the colour
space of the input. -/
structure Good (s t : ColorType) (f : World → Color → Outcome Color) : Prop where
  total : ∀ w c, IsColor s c → (viaXyz s = true ∨ viaXyz t = true → w.Usable c.space) → ∃ c', f w c = ok c'
  result : ∀ w c c', f w c = ok c' → Fresh t c.space c'

theorem Good.comp {s m t : ColorType} {f g : World → Color → Outcome Color} (hf : Good s m f) (hg : Good m t g)
    (hm : viaXyz m = true → viaXyz s = true ∨ viaXyz t = true) : Good s t (fun w c => f w c >>= g w) where
  total w c hc hw := by
    obtain ⟨d, hd⟩ := hf.total w c hc fun h => hw (h.elim Or.inl hm)
    obtain ⟨h1, _, _, h3⟩ := hf.result w c d hd
    obtain ⟨e, he⟩ := hg.total w d h1 fun h => h3 ▸ hw (h.elim hm Or.inr)
    exact ⟨e, by rw [hd, ok_bind, he]⟩
  result w c c' h := by
    obtain ⟨d, hd, he⟩ := bind_eq_ok.mp h
    have := hg.result w d c' he
    rwa [(hf.result w c d hd).space] at this

/-- `prog` reads the colour it is given, computes `f`, possibly creates intermediate colours and returns a pointer to a new colour; the
argument is replaced by `m`, everything else in memory stays as it was. -/
def Computes (prog : Ptr → Prog Ptr) (f : World → Color → Outcome Color) (m : World → Color → Color) : Prop :=
  ∀ (h : Heap) (i : Nat) (c : Color), h.colors[i]? = some c →
    match f h.world c with
    | ok c' => ∃ ext, prog (some i) h =
        (ok (some (h.colors.length + ext.length)), ⟨h.world, h.colors.set i (m h.world c) ++ ext ++ [c']⟩)
    | .throw e => ∃ ext, prog (some i) h = (.throw e, ⟨h.world, ext⟩)
    | .ub => ∃ h', prog (some i) h = (.ub, h')

/-- The argument is left alone. -/
def keep : World → Color → Color := fun _ c => c

theorem computes_map (f : World → Color → Outcome Color) : Computes (Prog.map f) f keep := by
  intro h i c hc
  have hs : h.colors.set i c = h.colors := by
    obtain ⟨hi, rfl⟩ := List.getElem?_eq_some_iff.mp hc
    exact List.set_getElem_self hi
  simp only [Prog.map, Prog.bind_def, load, hc, world, lift, keep, hs]
  cases f h.world c with
  | ok c' => exact ⟨[], by simp [alloc]⟩
  | throw e => exact ⟨h.colors, rfl⟩
  | ub => exact ⟨_, rfl⟩

theorem Computes.comp {p q : Ptr → Prog Ptr} {f g : World → Color → Outcome Color} {m m' : World → Color → Color}
    (hp : Computes p f m) (hq : Computes q g m') : Computes (fun x => do let y ← p x; q y) (fun w c => f w c >>= g w) m := by
  intro h i c hc
  have h1 := hp h i c hc
  simp only [Prog.bind_def]
  cases hf : f h.world c with
  | ok d =>
    rw [hf] at h1
    obtain ⟨ext, e1⟩ := h1
    simp only [ok_bind, e1]
    set h' : Heap := ⟨h.world, h.colors.set i (m h.world c) ++ ext ++ [d]⟩ with hh'
    have hn : h'.colors[h.colors.length + ext.length]? = some d := by
      simp [hh', List.getElem?_append_right]
    have h2 := hq h' _ d hn
    change (match g h.world d with | ok c' => _ | .throw e => _ | .ub => _) at h2
    cases hg : g h.world d with
    | ok e =>
      rw [hg] at h2
      obtain ⟨ext', e2⟩ := h2
      refine ⟨ext ++ [m' h.world d] ++ ext', ?_⟩
      rw [e2]
      congr 1
      · simp [hh']; omega
      · simp only [hh', Heap.mk.injEq, true_and]
        have hl : h.colors.length + ext.length = (h.colors.set i (m h.world c) ++ ext).length := by simp
        rw [hl, List.set_append_right _ _ (le_refl _)]
        simp
    | throw e => rw [hg] at h2; obtain ⟨ext', e2⟩ := h2; exact ⟨_, e2⟩
    | ub => rw [hg] at h2; obtain ⟨ext', e2⟩ := h2; exact ⟨_, e2⟩
  | throw e =>
    rw [hf] at h1
    obtain ⟨ext, e1⟩ := h1
    simp only [throw_bind, e1]
    exact ⟨_, rfl⟩
  | ub =>
    rw [hf] at h1
    obtain ⟨ext, e1⟩ := h1
    simp only [ub_bind, e1]
    exact ⟨_, rfl⟩

theorem isColor_three {t : ColorType} (ht : Color.count t = 3) {c : Color} (h : IsColor t c) :
    ∃ x y z, c = ⟨t, t, [x, y, z], c.malpha, Color.maxOf t, Color.minOf t, c.space⟩ := by
  obtain ⟨cl, ct, v, a, mx, mn, sp⟩ := c
  obtain ⟨h1, h2, h3, h4, h5⟩ := h
  simp only at h1 h2 h3 h4 h5
  subst h1 h2 h4 h5
  rw [ht] at h3
  match v, h3 with
  | [x, y, z], _ => exact ⟨x, y, z, rfl⟩

theorem isColor_one {t : ColorType} (ht : Color.count t = 1) {c : Color} (h : IsColor t c) :
    ∃ x, c = ⟨t, t, [x], c.malpha, Color.maxOf t, Color.minOf t, c.space⟩ := by
  obtain ⟨cl, ct, v, a, mx, mn, sp⟩ := c
  obtain ⟨h1, h2, h3, h4, h5⟩ := h
  simp only at h1 h2 h3 h4 h5
  subst h1 h2 h4 h5
  rw [ht] at h3
  match v, h3 with
  | [x], _ => exact ⟨x, rfl⟩

theorem isColor_four {t : ColorType} (ht : Color.count t = 4) {c : Color} (h : IsColor t c) :
    ∃ x y z u, c = ⟨t, t, [x, y, z, u], c.malpha, Color.maxOf t, Color.minOf t, c.space⟩ := by
  obtain ⟨cl, ct, v, a, mx, mn, sp⟩ := c
  obtain ⟨h1, h2, h3, h4, h5⟩ := h
  simp only at h1 h2 h3 h4 h5
  subst h1 h2 h4 h5
  rw [ht] at h3
  match v, h3 with
  | [x, y, z, u], _ => exact ⟨x, y, z, u, rfl⟩

omit [FloatModel] in
@[simp] theorem get3_0 (k t : ColorType) (x y z a mx mn : Fl) (sp : Option Nat) : Color.getComponent ⟨k, t, [x, y, z], a, mx, mn, sp⟩ 0 = ok x := rfl
omit [FloatModel] in
@[simp] theorem get3_1 (k t : ColorType) (x y z a mx mn : Fl) (sp : Option Nat) : Color.getComponent ⟨k, t, [x, y, z], a, mx, mn, sp⟩ 1 = ok y := rfl
omit [FloatModel] in
@[simp] theorem get3_2 (k t : ColorType) (x y z a mx mn : Fl) (sp : Option Nat) : Color.getComponent ⟨k, t, [x, y, z], a, mx, mn, sp⟩ 2 = ok z := rfl
omit [FloatModel] in
@[simp] theorem get1_0 (k t : ColorType) (x a mx mn : Fl) (sp : Option Nat) : Color.getComponent ⟨k, t, [x], a, mx, mn, sp⟩ 0 = ok x := rfl
omit [FloatModel] in
@[simp] theorem get4_0 (k t : ColorType) (x y z u a mx mn : Fl) (sp : Option Nat) : Color.getComponent ⟨k, t, [x, y, z, u], a, mx, mn, sp⟩ 0 = ok x := rfl
omit [FloatModel] in
@[simp] theorem get4_1 (k t : ColorType) (x y z u a mx mn : Fl) (sp : Option Nat) : Color.getComponent ⟨k, t, [x, y, z, u], a, mx, mn, sp⟩ 1 = ok y := rfl
omit [FloatModel] in
@[simp] theorem get4_2 (k t : ColorType) (x y z u a mx mn : Fl) (sp : Option Nat) : Color.getComponent ⟨k, t, [x, y, z, u], a, mx, mn, sp⟩ 2 = ok z := rfl
omit [FloatModel] in
@[simp] theorem get4_3 (k t : ColorType) (x y z u a mx mn : Fl) (sp : Option Nat) : Color.getComponent ⟨k, t, [x, y, z, u], a, mx, mn, sp⟩ 3 = ok u := rfl

end Conv
