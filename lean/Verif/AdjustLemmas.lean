import Verif.Adjust
import Verif.BlendLemmas

/-! Helper lemmas about adjustments and combinations. -/

open Outcome Fl Prog ObjectSpec ConvSpec BlendSpec Hue

namespace Combine
variable [FloatModel]

/-- Types `convertTo` can produce. -/
def Target (s : ColorType) : Prop := s ≠ .undefined ∧ s ≠ .lchAb ∧ s ≠ .lchUv

/-- The pointers in `ks` point to the colours `rs`, all of which were made after memory `h`. -/
def Points (h h' : Heap) (ks : List Ptr) (rs : List Color) : Prop :=
  List.Forall₂ (fun k r => ∃ i, k = some i ∧ h.colors.length ≤ i ∧ h'.colors[i]? = some r) ks rs

theorem frame_refl (h : Heap) : Frame h h := ⟨rfl, fun _ _ hh => hh⟩

theorem frame_length {h h' : Heap} (hf : Frame h h') : h.colors.length ≤ h'.colors.length := by
  rcases Nat.eq_zero_or_pos h.colors.length with h0 | h0
  · omega
  · have : h.colors[h.colors.length - 1]? = some (h.colors[h.colors.length - 1]'(by omega)) := List.getElem?_eq_getElem _
    have := (List.getElem?_eq_some_iff.mp (hf.2 _ _ this)).1
    omega

/-- Making an object. -/
theorem alloc_run (c : Color) (h : Heap) : alloc c h = (ok (some h.colors.length), ⟨h.world, h.colors ++ [c]⟩) := rfl

theorem alloc_here (c : Color) (h : Heap) : (h.colors ++ [c])[h.colors.length]? = some c := by simp

theorem load_some {h : Heap} {i : Nat} {c : Color} (hi : h.colors[i]? = some c) : load (some i) h = (ok c, h) := by simp [load, hi]

/-- `convertTo` on an existing object. -/
theorem convert_run {s t : ColorType} (hs : s ≠ .undefined) (ht : Target t) {c c' : Color} (hcol : IsColor s c) {h : Heap} {i : Nat} (hi : h.colors[i]? = some c)
    (hv : Val.to s t h.world c = ok c') : ∃ q h', Converter.convertTo (some i) t h = (ok (some q), h') ∧ Called h i c c' t q h' := by
  rw [convertTo_dispatcher ht.2.1 ht.2.2 ht.1]
  exact call_to hs ht.1 hcol hi hv

theorem hsl_target : Target .hsl := by simp [Target]
theorem rgb_target : Target .rgbDeep := by simp [Target]

/-- A fresh object converted: nothing old changes, and the result is new. -/
theorem fresh_convert {s t : ColorType} (hs : s ≠ .undefined) (ht : Target t) {n r : Color} (hcol : IsColor s n) (hx : ¬ (s = .rgbDeep ∧ Cie t)) {h : Heap}
    (hv : Val.to s t h.world n = ok r) :
    ∃ k h', Converter.convertTo (some h.colors.length) t ⟨h.world, h.colors ++ [n]⟩ = (ok (some k), h') ∧ Frame h h' ∧ h.colors.length ≤ k ∧ h'.colors[k]? = some r ∧
      IsColor t r ∧ r.space = n.space := by
  obtain ⟨q, h', e, hc⟩ := convert_run (h := ⟨h.world, h.colors ++ [n]⟩) (i := h.colors.length) hs ht hcol (by simp) hv
  have hfa : Frame h ⟨h.world, h.colors ++ [n]⟩ := ⟨rfl, fun j d hj => by
    rw [List.getElem?_append_left (List.getElem?_eq_some_iff.mp hj).1]; exact hj⟩
  refine ⟨q, h', e, hfa.trans (hc.frame (by rw [hcol.ctype]; exact hx)), ?_, hc.here, hc.col, hc.space⟩
  rcases hc.fresh with hh | hh
  · omega
  · have := hh.1; simp at this; omega

/-- A fresh RGB_DEEP object converted to any type: old objects do not change, since only the fresh one may. -/
theorem fresh_convert_rgb {t : ColorType} (ht : Target t) {n r : Color} (hcol : IsColor .rgbDeep n) {h : Heap} (hv : Val.to .rgbDeep t h.world n = ok r) :
    ∃ k h', Converter.convertTo (some h.colors.length) t ⟨h.world, h.colors ++ [n]⟩ = (ok (some k), h') ∧ Frame h h' ∧ h.colors.length ≤ k ∧ h'.colors[k]? = some r ∧
      IsColor t r ∧ r.space = n.space := by
  obtain ⟨q, h', e, hc⟩ := convert_run (h := ⟨h.world, h.colors ++ [n]⟩) (i := h.colors.length) (by simp) ht hcol (by simp) hv
  refine ⟨q, h', e, ⟨hc.world, fun j d hj => ?_⟩, ?_, hc.here, hc.col, hc.space⟩
  · have hjl := (List.getElem?_eq_some_iff.mp hj).1
    refine hc.others j d (by omega) ?_
    rw [List.getElem?_append_left hjl]; exact hj
  · rcases hc.fresh with hh | hh
    · omega
    · have := hh.1; simp at this; omega

theorem hslColor {c : Color} (h : IsColor .hsl c) : ∃ x y z, c = ⟨.hsl, .hsl, [x, y, z], c.malpha, 1, 0, c.space⟩ := Conv.isColor_three rfl h

theorem mkHsl_color (x y z a : Fl) (sp : Option Nat) : IsColor .hsl (Color.mkHue .hsl x y z a sp) := ⟨rfl, rfl, rfl, rfl, rfl⟩

/-- One turned colour. -/
theorem turned_run {s : ColorType} (hs : Target s) {o c r : Color} (ho : IsColor s o) {x y z : Fl} (hc : c.comps = [x, y, z]) {f : Fl → Fl} {h : Heap} {i q : Nat}
    (hi : h.colors[i]? = some o) (hq : h.colors[q]? = some c) (hv : Val.to .hsl s h.world (Color.mkHue .hsl (f x) y z o.alpha o.space) = ok r) :
    ∃ k h', turned (some i) (some q) f h = (ok (some k), h') ∧ Frame h h' ∧ h.colors.length ≤ k ∧ h'.colors[k]? = some r ∧ IsColor s r ∧ r.space = o.space := by
  have g : c.getComponent 0 = ok x ∧ c.getComponent 1 = ok y ∧ c.getComponent 2 = ok z := by
    obtain ⟨k, t, cs, a, mx, mn, sp⟩ := c
    simp only at hc
    subst hc
    exact ⟨rfl, rfl, rfl⟩
  obtain ⟨k, h', e, h1, h2, h3, h4, h5⟩ := fresh_convert (by simp) hs (mkHsl_color _ _ _ _ _) (by simp) hv
  refine ⟨k, h', ?_, h1, h2, h3, h4, h5⟩
  simp only [turned, Prog.bind_def, load_some hq, load_some hi, lift, g.1, g.2.1, g.2.2, Color.construct_hsl, alloc_run, ho.ctype]
  exact e

/-- All turned colours. -/
theorem turns_run {s : ColorType} (hs : Target s) {o c : Color} (ho : IsColor s o) {x y z : Fl} (hc : c.comps = [x, y, z]) {deg : Fl} {i q : Nat} {w : World}
    (hw : Cie s → w.Usable o.space) (n : Nat) : ∀ (m : Nat) (h : Heap), h.world = w → h.colors[i]? = some o → h.colors[q]? = some c →
    ∃ ks h' rs, turns (some i) (some q) deg n m h = (ok ks, h') ∧ Frame h h' ∧ Points h h' ks rs ∧ rs.length = n ∧
      ∀ j < n, ∃ r, rs[j]? = some r ∧ Val.to .hsl s w (Color.mkHue .hsl (x + rnd ((m + j : ℕ) : ℝ) * deg) y z o.alpha o.space) = ok r ∧ IsColor s r ∧ r.space = o.space := by
  induction n with
  | zero =>
    intro m h hwd hi hq
    exact ⟨[], h, [], rfl, frame_refl h, .nil, rfl, fun j hj => absurd hj (Nat.not_lt_zero j)⟩
  | succ n ih =>
    intro m h hwd hi hq
    obtain ⟨r, er, hr, hsp⟩ := val_to_total (s := .hsl) (t := s) (w := w) (by simp) hs.1 (mkHsl_color (x + rnd ((m : ℕ) : ℝ) * deg) y z o.alpha o.space)
      (fun hh _ => hw (hh.resolve_left (by simp [Cie])))
    obtain ⟨k, h1, e1, f1, k1, here1, -⟩ := turned_run hs ho hc (f := fun x => x + rnd ((m : ℕ) : ℝ) * deg) hi hq (by rw [hwd]; exact er)
    obtain ⟨ks, h2, rs, e2, f2, p2, l2, all2⟩ := ih (m + 1) h1 (f1.1.trans hwd) (f1.2 _ _ hi) (f1.2 _ _ hq)
    refine ⟨some k :: ks, h2, r :: rs, ?_, f1.trans f2, ?_, by simp [l2], ?_⟩
    · simp only [turns, Prog.bind_def, e1, e2, Prog.pure_run]
    · refine .cons ⟨k, rfl, k1, f2.2 _ _ here1⟩ (p2.imp ?_)
      rintro a b ⟨i', rfl, hl, hb⟩
      exact ⟨i', rfl, (frame_length f1).trans hl, hb⟩
    · intro j hj
      rcases j with _ | j
      · exact ⟨r, rfl, er, hr, hsp⟩
      · obtain ⟨r', a1, a2, a3, a4⟩ := all2 j (by omega)
        refine ⟨r', a1, ?_, a3, a4⟩
        rw [← a2]
        congr 5
        push_cast
        ring

/-- The whole combination. -/
theorem combination_run {s : ColorType} (hs : Target s) {o d : Color} (ho : IsColor s o) {x y z : Fl} {n : Int} (h2 : 2 ≤ n) (h360 : n ≤ 360) {h : Heap} {i : Nat}
    (hi : h.colors[i]? = some o) (hw : Cie s → h.world.Usable o.space) (hd : Val.to s .hsl h.world o = ok d) (hdc : d.comps = [x, y, z]) :
    ∃ ks h' rs, create_combination (some i) n h = (ok (some i :: ks), h') ∧ Frame h h' ∧ Points h h' ks rs ∧ (rs.length : ℤ) = n - 1 ∧
      ∀ j : ℕ, (j : ℤ) + 1 < n → ∃ r, rs[j]? = some r ∧ Val.to .hsl s h.world (Color.mkHue .hsl (x + rnd ((j + 1 : ℕ) : ℝ) * (360 / rnd (n : ℝ))) y z o.alpha o.space) = ok r ∧
        IsColor s r ∧ r.space = o.space := by
  obtain ⟨q, h1, e1, c1⟩ := convert_run hs.1 hsl_target ho hi hd
  have f1 := c1.frame (by simp [Cie])
  obtain ⟨ks, h', rs, e2, f2, p2, l2, all2⟩ := turns_run hs ho hdc (deg := 360 / rnd (n : ℝ)) (i := i) (q := q) (w := h.world) hw (n - 1).toNat 1 h1 c1.world (f1.2 _ _ hi) c1.here
  refine ⟨ks, h', rs, ?_, f1.trans f2, ?_, by omega, ?_⟩
  · rw [create_combination, if_neg (by omega)]
    simp only [Prog.bind_def, e1, e2, Prog.pure_run]
  · refine p2.imp ?_
    rintro a b ⟨i', rfl, hl, hb⟩
    exact ⟨i', rfl, (frame_length f1).trans hl, hb⟩
  · intro j hj
    obtain ⟨r, a1, a2, a3, a4⟩ := all2 j (by omega)
    exact ⟨r, a1, by rw [← a2, Nat.add_comm j 1], a3, a4⟩

end Combine

namespace Adjust
variable [FloatModel]
open Combine

/-- The HSL colour with another saturation. -/
noncomputable def satVal (a : Fl) (c : Color) : Outcome Color := if feq a 0 then ok c else do c.setChannel 1 ((← c.getComponent 1) * (1 + a))

/-- The HSL colour with another lightness. -/
noncomputable def lumVal (a : Fl) (c : Color) : Outcome Color := if feq a 0 then ok c else do c.setChannel 2 ((← c.getComponent 2) * (1 + a))

theorem satVal_eq (a : Fl) {c : Color} {x y z : Fl} (h : c = ⟨.hsl, .hsl, [x, y, z], c.malpha, 1, 0, c.space⟩) :
    satVal a c = ok (if feq a 0 then c else ⟨.hsl, .hsl, [x, Color.clamp (y * (1 + a)) 1 0, z], c.malpha, 1, 0, c.space⟩) := by
  unfold satVal
  split
  · rfl
  · rw [h]; rfl

theorem lumVal_eq (a : Fl) {c : Color} {x y z : Fl} (h : c = ⟨.hsl, .hsl, [x, y, z], c.malpha, 1, 0, c.space⟩) :
    lumVal a c = ok (if feq a 0 then c else ⟨.hsl, .hsl, [x, y, Color.clamp (z * (1 + a)) 1 0], c.malpha, 1, 0, c.space⟩) := by
  unfold lumVal
  split
  · rfl
  · rw [h]; rfl

/-- What the two HSL adjustments have in common. -/
noncomputable def inHsl (f : Color → Outcome Color) (p : Ptr) : Prog Ptr := do
  let q ← Converter.convertTo p .hsl
  let c ← load q
  let c' ← lift (f c)
  store q c'
  let o ← load p
  Converter.convertTo q o.ctype

theorem saturate_eq {a : Fl} (ha : ¬ feq a 0) (p : Ptr) (h : Heap) : saturate_in_hsl_space p a h = inHsl (satVal a) p h := by
  simp only [saturate_in_hsl_space, if_neg ha, inHsl, satVal, Prog.bind_def, lift]
  rcases Converter.convertTo p .hsl h with ⟨o, h1⟩
  cases o <;> simp only
  rcases load _ h1 with ⟨o, h2⟩
  cases o <;> simp only
  rename_i c
  rcases c.getComponent 1 with _ | _ | _ <;> simp only [ok_bind, throw_bind, ub_bind]

theorem luminate_eq {a : Fl} (ha : ¬ feq a 0) (p : Ptr) (h : Heap) : luminate_in_hsl_space p a h = inHsl (lumVal a) p h := by
  simp only [luminate_in_hsl_space, if_neg ha, inHsl, lumVal, Prog.bind_def, lift]
  rcases Converter.convertTo p .hsl h with ⟨o, h1⟩
  cases o <;> simp only
  rcases load _ h1 with ⟨o, h2⟩
  cases o <;> simp only
  rename_i c
  rcases c.getComponent 2 with _ | _ | _ <;> simp only [ok_bind, throw_bind, ub_bind]

/-- On an HSL colour: the object itself is changed and returned. -/
theorem inHsl_own {f : Color → Outcome Color} {c c' : Color} (hc : IsColor .hsl c) (hc' : IsColor .hsl c') (hf : f c = ok c') {h : Heap} {i : Nat} (hi : h.colors[i]? = some c) :
    inHsl f (some i) h = (ok (some i), ⟨h.world, h.colors.set i c'⟩) := by
  have hl := (List.getElem?_eq_some_iff.mp hi).1
  have e1 : Converter.convertTo (some i) .hsl h = (ok (some i), h) := by
    rw [convertTo_dispatcher (by simp) (by simp) (by simp)]
    exact Conv.dispatcher_same .hsl (by simp) h i c hi hc.cls hc.ctype
  have e2 : Converter.convertTo (some i) .hsl ⟨h.world, h.colors.set i c'⟩ = (ok (some i), ⟨h.world, h.colors.set i c'⟩) := by
    rw [convertTo_dispatcher (by simp) (by simp) (by simp)]
    exact Conv.dispatcher_same .hsl (by simp) _ i c' (by simp [hl]) hc'.cls hc'.ctype
  have e3 : load (some i) ⟨h.world, h.colors.set i c'⟩ = (ok c', ⟨h.world, h.colors.set i c'⟩) := load_some (by simp [hl])
  simp only [inHsl, Prog.bind_def, e1, load_some hi, lift, hf, store, hl, if_true, e3, hc'.ctype, e2]

/-- On a colour of another type: nothing changes but a new object. -/
theorem inHsl_other {s : ColorType} (hs : Target s) (hne : s ≠ .hsl) {f : Color → Outcome Color} {c d d' r : Color} (hc : IsColor s c) (hd' : IsColor .hsl d') (hf : f d = ok d')
    {h : Heap} {i : Nat} (hi : h.colors[i]? = some c) (hd : Val.to s .hsl h.world c = ok d) (hr : Val.to .hsl s h.world d' = ok r) :
    ∃ k h', inHsl f (some i) h = (ok (some k), h') ∧ Frame h h' ∧ h.colors.length ≤ k ∧ h'.colors[k]? = some r ∧ IsColor s r ∧ r.space = d'.space := by
  obtain ⟨q, h1, e1, c1⟩ := convert_run hs.1 hsl_target hc hi hd
  have f1 := c1.frame (by simp [Cie])
  have hq : h.colors.length ≤ q := by
    rcases c1.fresh with hh | hh
    · exact absurd hh.2.2.2 (by rw [hc.ctype]; exact hne)
    · exact hh.1
  have hql := (List.getElem?_eq_some_iff.mp c1.here).1
  have hil := (List.getElem?_eq_some_iff.mp hi).1
  have fs : Frame h ⟨h1.world, h1.colors.set q d'⟩ := ⟨f1.1, fun j e hj => by
    have := (List.getElem?_eq_some_iff.mp hj).1
    rw [List.getElem?_set_ne (by omega)]
    exact f1.2 j e hj⟩
  obtain ⟨k, h2, e2, c2⟩ := convert_run (h := ⟨h1.world, h1.colors.set q d'⟩) (i := q) (by simp) hs hd' (by simp [hql]) (by simp only [c1.world]; exact hr)
  refine ⟨k, h2, ?_, fs.trans (c2.frame (by rw [hd'.ctype]; simp)), ?_, c2.here, c2.col, c2.space⟩
  · simp only [inHsl, Prog.bind_def, e1, load_some c1.here, lift, hf, store, hql, if_true, load_some (fs.2 i c hi), hc.ctype, e2]
  · rcases c2.fresh with hh | hh
    · rw [hh.1]; exact hq
    · have := hh.1
      simp at this
      omega

end Adjust

namespace Adjust
variable [FloatModel]
open Combine

/-- Adjusting an HSL object in place. -/
theorem sat_own (a : Fl) {c : Color} (hc : IsColor .hsl c) : ∃ c', satVal a c = ok c' ∧ IsColor .hsl c' ∧ c'.malpha = c.malpha ∧ c'.space = c.space ∧
    ∀ {h : Heap} {i : Nat}, h.colors[i]? = some c → saturate_in_hsl_space (some i) a h = (ok (some i), ⟨h.world, h.colors.set i c'⟩) := by
  obtain ⟨x, y, z, e⟩ := hslColor hc
  refine ⟨_, satVal_eq a e, ?_, ?_, ?_, ?_⟩
  · split
    · exact hc
    · exact ⟨rfl, rfl, rfl, rfl, rfl⟩
  · split <;> rfl
  · split <;> rfl
  · intro h i hi
    by_cases ha : feq a 0
    · rw [saturate_in_hsl_space, if_pos ha, if_pos ha, Prog.pure_run]
      obtain ⟨hl, he⟩ := List.getElem?_eq_some_iff.mp hi
      rw [← he, List.set_getElem_self]
    · rw [saturate_eq ha, if_neg ha]
      exact inHsl_own hc ⟨rfl, rfl, rfl, rfl, rfl⟩ (by rw [satVal_eq a e, if_neg ha]) hi

theorem lum_own (a : Fl) {c : Color} (hc : IsColor .hsl c) : ∃ c', lumVal a c = ok c' ∧ IsColor .hsl c' ∧ c'.malpha = c.malpha ∧ c'.space = c.space ∧
    ∀ {h : Heap} {i : Nat}, h.colors[i]? = some c → luminate_in_hsl_space (some i) a h = (ok (some i), ⟨h.world, h.colors.set i c'⟩) := by
  obtain ⟨x, y, z, e⟩ := hslColor hc
  refine ⟨_, lumVal_eq a e, ?_, ?_, ?_, ?_⟩
  · split
    · exact hc
    · exact ⟨rfl, rfl, rfl, rfl, rfl⟩
  · split <;> rfl
  · split <;> rfl
  · intro h i hi
    by_cases ha : feq a 0
    · rw [luminate_in_hsl_space, if_pos ha, if_pos ha, Prog.pure_run]
      obtain ⟨hl, he⟩ := List.getElem?_eq_some_iff.mp hi
      rw [← he, List.set_getElem_self]
    · rw [luminate_eq ha, if_neg ha]
      exact inHsl_own hc ⟨rfl, rfl, rfl, rfl, rfl⟩ (by rw [lumVal_eq a e, if_neg ha]) hi

/-- What the two RGB adjustments have in common. -/
noncomputable def inRgb (f : Fl → Fl → Fl → Fl × Fl × Fl) (p : Ptr) : Prog Ptr := do
  let q ← Converter.convertTo p .rgbDeep
  let c ← load q
  let r ← lift (c.getComponent 0)
  let g ← lift (c.getComponent 1)
  let b ← lift (c.getComponent 2)
  let o ← load p
  let n ← lift (Color.construct .rgbDeep [(f r g b).1, (f r g b).2.1, (f r g b).2.2] c.alpha o.space)
  let n ← alloc n
  Converter.convertTo n o.ctype

/-- The formula of `saturate_in_rgb_space`. -/
noncomputable def satRgb (p r g b : Fl) : Fl × Fl × Fl :=
  let L := lit 0.299 * r + lit 0.587 * g + lit 0.114 * b
  (r - p * (L - r), g - p * (L - g), b - p * (L - b))

/-- The formula of `luminate_in_rgb_space`. -/
noncomputable def lumRgb (p r g b : Fl) : Fl × Fl × Fl := (r * (1 + p), g * (1 + p), b * (1 + p))

theorem saturate_rgb_eq (p : Ptr) (a : Fl) : saturate_in_rgb_space p a = inRgb (satRgb a) p := rfl

theorem luminate_rgb_eq (p : Ptr) (a : Fl) : luminate_in_rgb_space p a = inRgb (lumRgb a) p := rfl

theorem rgbColor {c : Color} (h : IsColor .rgbDeep c) : ∃ x y z, c = ⟨.rgbDeep, .rgbDeep, [x, y, z], c.malpha, 1, 0, c.space⟩ := Conv.isColor_three rfl h

theorem mkRgb_color (x y z a : Fl) (sp : Option Nat) : IsColor .rgbDeep (Color.mkRgbDeep x y z a sp) := ⟨rfl, rfl, rfl, rfl, rfl⟩

/-- A colour adjusted in RGB: a new object, nothing else changes. -/
theorem inRgb_run {s : ColorType} (hs : Target s) {f : Fl → Fl → Fl → Fl × Fl × Fl} {c d r : Color} (hc : IsColor s c) {x y z : Fl} (hd : d.comps = [x, y, z]) {h : Heap} {i : Nat}
    (hi : h.colors[i]? = some c) (hv : Val.to s .rgbDeep h.world c = ok d)
    (hr : Val.to .rgbDeep s h.world (Color.mkRgbDeep (f x y z).1 (f x y z).2.1 (f x y z).2.2 d.alpha c.space) = ok r) :
    ∃ k h', inRgb f (some i) h = (ok (some k), h') ∧ Frame h h' ∧ h.colors.length ≤ k ∧ h'.colors[k]? = some r ∧ IsColor s r ∧ r.space = c.space := by
  obtain ⟨q, h1, e1, c1⟩ := Combine.convert_run hs.1 rgb_target hc hi hv
  have f1 := c1.frame (by simp [Cie])
  have g : d.getComponent 0 = ok x ∧ d.getComponent 1 = ok y ∧ d.getComponent 2 = ok z := by
    obtain ⟨k, t, cs, a, mx, mn, sp⟩ := d
    simp only at hd
    subst hd
    exact ⟨rfl, rfl, rfl⟩
  obtain ⟨k, h2, e2, f2, k2, here2, i2, s2⟩ := fresh_convert_rgb (h := h1) hs (mkRgb_color (f x y z).1 (f x y z).2.1 (f x y z).2.2 d.alpha c.space) (by rw [c1.world]; exact hr)
  refine ⟨k, h2, ?_, f1.trans f2, (frame_length f1).trans k2, here2, i2, s2⟩
  simp only [inRgb, Prog.bind_def, e1, load_some c1.here, lift, g.1, g.2.1, g.2.2, load_some (f1.2 _ _ hi), Color.construct_rgbDeep, alloc_run, hc.ctype, e2]

end Adjust

namespace Combine
variable [FloatModel]
open Adjust

/-- The adjustment of one mode of `create_monochromatic`. -/
noncomputable def modeVal (mode : Int) (a : Fl) (c : Color) : Outcome Color :=
  if mode = 0 then satVal a c else if mode = 1 then lumVal a c else do lumVal a (← satVal a c)

/-- One colour of a monochromatic set and the next. -/
def Step (w : World) (s : ColorType) (o : Color) (mode : Int) (a : Fl) (c c' : Color) : Prop :=
  ∃ d d' x y z, Val.to s .hsl w c = ok d ∧ IsColor .hsl d ∧ d.comps = [x, y, z] ∧ modeVal mode a (Color.mkHue .hsl x y z o.alpha o.space) = ok d' ∧ IsColor .hsl d' ∧
    d'.malpha = o.alpha ∧ d'.space = o.space ∧ Val.to .hsl s w d' = ok c' ∧ IsColor s c' ∧ c'.space = o.space

theorem getHsl {c : Color} {x y z : Fl} (hc : c.comps = [x, y, z]) : c.getComponent 0 = ok x ∧ c.getComponent 1 = ok y ∧ c.getComponent 2 = ok z := by
  obtain ⟨k, t, cs, a, mx, mn, sp⟩ := c
  simp only at hc
  subst hc
  exact ⟨rfl, rfl, rfl⟩

/-- One pass. -/
theorem shade_run {s : ColorType} (hs : Target s) {o c : Color} (hc : IsColor s c) {mode : Int} (hm : mode = 0 ∨ mode = 1 ∨ mode = 2) (a : Fl) {i k : Nat} {h : Heap}
    (hw : Cie s → h.world.Usable o.space) (hsp : c.space = o.space) (hi : h.colors[i]? = some o) (hk : h.colors[k]? = some c) :
    ∃ k' h' c', shade (some i) s mode a (some k) h = (ok (some k'), h') ∧ Frame h h' ∧ h.colors.length ≤ k' ∧ h'.colors[k']? = some c' ∧ Step h.world s o mode a c c' := by
  obtain ⟨d, ed, hd, -⟩ := val_to_total (s := s) (t := .hsl) (w := h.world) hs.1 (by simp) hc (fun hh _ => by rw [hsp]; exact hw (hh.resolve_right (by simp [Cie])))
  obtain ⟨x, y, z, hdx⟩ := hslColor hd
  have hdc : d.comps = [x, y, z] := by rw [hdx]
  obtain ⟨g0, g1, g2⟩ := getHsl hdc
  obtain ⟨q, h1, e1, c1⟩ := convert_run hs.1 hsl_target hc hk ed
  have f1 := c1.frame (by simp [Cie])
  set n := Color.mkHue .hsl x y z o.alpha o.space with hn
  have hnc : IsColor .hsl n := mkHsl_color ..
  have hren : renewed (some i) (some q) h1 = (ok (some h1.colors.length), ⟨h1.world, h1.colors ++ [n]⟩) := by
    simp only [renewed, Prog.bind_def, load_some c1.here, load_some (f1.2 _ _ hi), lift, g0, g1, g2, Color.construct_hsl, alloc_run, hn]
  -- the adjusted object, wherever it is made
  obtain ⟨d', em, hd', al', sp', hrun⟩ : ∃ d', modeVal mode a n = ok d' ∧ IsColor .hsl d' ∧ d'.malpha = o.alpha ∧ d'.space = o.space ∧
      shade (some i) s mode a (some k) h = Converter.convertTo (some h1.colors.length) s ⟨h1.world, h1.colors ++ [d']⟩ := by
    have hat : ∀ m : Color, (h1.colors ++ [m])[h1.colors.length]? = some m := fun m => by simp
    have hset : ∀ m m' : Color, (h1.colors ++ [m]).set h1.colors.length m' = h1.colors ++ [m'] := fun m m' => by simp
    obtain ⟨m1, v1, i1, a1, s1, r1⟩ := sat_own a hnc
    obtain ⟨m2, v2, i2, a2, s2, r2⟩ := lum_own a hnc
    obtain ⟨m3, v3, i3, a3, s3, r3⟩ := lum_own a i1
    rcases hm with rfl | rfl | rfl
    · refine ⟨m1, by simp [modeVal, v1], i1, a1, s1, ?_⟩
      simp only [shade, Prog.bind_def, e1, if_true, hren, r1 (h := ⟨h1.world, h1.colors ++ [n]⟩) (hat n), hset]
    · refine ⟨m2, by simp [modeVal, v2], i2, a2, s2, ?_⟩
      simp only [shade, Prog.bind_def, e1, one_ne_zero, if_false, if_true, hren, r2 (h := ⟨h1.world, h1.colors ++ [n]⟩) (hat n), hset]
    · refine ⟨m3, by simp [modeVal, v1, v3], i3, a3.trans a1, s3.trans s1, ?_⟩
      simp only [shade, Prog.bind_def, e1, OfNat.ofNat_ne_zero, OfNat.ofNat_ne_one, if_false, if_true, hren, r1 (h := ⟨h1.world, h1.colors ++ [n]⟩) (hat n), hset]
      simp only [r3 (h := ⟨h1.world, h1.colors ++ [m1]⟩) (hat m1), hset]
  obtain ⟨c', ec', hc', hsp'⟩ := val_to_total (s := .hsl) (t := s) (w := h1.world) (by simp) hs.1 hd' (fun hh _ => by
    rw [sp', c1.world]; exact hw (hh.resolve_left (by simp [Cie])))
  obtain ⟨k', h', e2, f2, l2, here2, i2, s2⟩ := fresh_convert (h := h1) (by simp) hs hd' (by simp) ec'
  exact ⟨k', h', c', by rw [hrun, e2], f1.trans f2, (frame_length f1).trans l2, here2, d, d', x, y, z, ed, hd, hdc, em, hd', al', sp', by rw [← c1.world]; exact ec', hc', hsp'.trans sp'⟩

/-- The whole loop. -/
theorem shades_run {s : ColorType} (hs : Target s) {o : Color} {mode : Int} (hm : mode = 0 ∨ mode = 1 ∨ mode = 2) (a : Fl) {i : Nat} {w : World} (hw : Cie s → w.Usable o.space) (n : Nat) :
    ∀ (h : Heap) (k : Nat) (c : Color), h.world = w → IsColor s c → c.space = o.space → h.colors[i]? = some o → h.colors[k]? = some c →
    ∃ ks h' rs, shades (some i) s mode a n (some k) h = (ok ks, h') ∧ Frame h h' ∧ Points h h' ks rs ∧ rs.length = n ∧ List.IsChain (Step w s o mode a) (c :: rs) := by
  induction n with
  | zero =>
    intro h k c _ _ _ _ _
    exact ⟨[], h, [], rfl, frame_refl h, .nil, rfl, by simp⟩
  | succ n ih =>
    intro h k c hwd hc hsp hi hk
    subst hwd
    obtain ⟨k', h1, c', e1, f1, l1, here1, st⟩ := shade_run hs hc hm a hw hsp hi hk
    obtain ⟨d, d', x, y, z, -, -, -, -, -, -, -, -, hc', hsp'⟩ := id st
    obtain ⟨ks, h2, rs, e2, f2, p2, len2, ch2⟩ := ih h1 k' c' f1.1 hc' hsp' (f1.2 _ _ hi) here1
    refine ⟨some k' :: ks, h2, c' :: rs, ?_, f1.trans f2, ?_, by simp [len2], ?_⟩
    · simp only [shades, Prog.bind_def, e1, e2, Prog.pure_run]
    · refine .cons ⟨k', rfl, l1, f2.2 _ _ here1⟩ (p2.imp ?_)
      rintro _ _ ⟨i', rfl, hl, hb⟩
      exact ⟨i', rfl, (frame_length f1).trans hl, hb⟩
    · exact .cons_cons st ch2

/-- The two turned colours of `create_analogous`. -/
theorem analogous_run {s : ColorType} (hs : Target s) {o d : Color} (ho : IsColor s o) {x y z v : Fl} (hv0 : ¬ feq v 0) (hv1 : ¬ v > 360 / 3) {h : Heap} {i : Nat}
    (hi : h.colors[i]? = some o) (hw : Cie s → h.world.Usable o.space) (hd : Val.to s .hsl h.world o = ok d) (hdc : d.comps = [x, y, z]) :
    ∃ k1 k2 h' r1 r2, create_analogous (some i) v h = (ok [some k1, some i, some k2], h') ∧ Frame h h' ∧ h.colors.length ≤ k1 ∧ h.colors.length ≤ k2 ∧
      h'.colors[k1]? = some r1 ∧ h'.colors[k2]? = some r2 ∧ Val.to .hsl s h.world (Color.mkHue .hsl (x - v) y z o.alpha o.space) = ok r1 ∧
      Val.to .hsl s h.world (Color.mkHue .hsl (x + v) y z o.alpha o.space) = ok r2 := by
  obtain ⟨q, h1, e1, c1⟩ := convert_run hs.1 hsl_target ho hi hd
  have f1 := c1.frame (by simp [Cie])
  have tot : ∀ u, ∃ r, Val.to .hsl s h.world (Color.mkHue .hsl u y z o.alpha o.space) = ok r := fun u => by
    obtain ⟨r, e, -⟩ := val_to_total (s := .hsl) (t := s) (w := h.world) (by simp) hs.1 (mkHsl_color u y z o.alpha o.space) (fun hh _ => hw (hh.resolve_left (by simp [Cie])))
    exact ⟨r, e⟩
  obtain ⟨r1, er1⟩ := tot (x - v)
  obtain ⟨r2, er2⟩ := tot (x + v)
  obtain ⟨k1, h2, e2, f2, l2, here2, -⟩ := turned_run hs ho hdc (f := fun x => x - v) (f1.2 _ _ hi) c1.here (by rw [c1.world]; exact er1)
  obtain ⟨k2, h3, e3, f3, l3, here3, -⟩ := turned_run hs ho hdc (f := fun x => x + v) (f2.2 _ _ (f1.2 _ _ hi)) (f2.2 _ _ c1.here) (by rw [f2.1, c1.world]; exact er2)
  refine ⟨k1, k2, h3, r1, r2, ?_, (f1.trans f2).trans f3, (frame_length f1).trans l2, (frame_length (f1.trans f2)).trans l3, f3.2 _ _ here2, here3, er1, er2⟩
  rw [create_analogous, if_neg (by tauto)]
  simp only [Prog.bind_def, e1, e2, e3, Prog.pure_run]

/-- The complement. -/
theorem complement_run {s : ColorType} (hs : Target s) {o d : Color} (ho : IsColor s o) {x y z : Fl} {h : Heap} {i : Nat}
    (hi : h.colors[i]? = some o) (hw : Cie s → h.world.Usable o.space) (hd : Val.to s .hsl h.world o = ok d) (hdc : d.comps = [x, y, z]) :
    ∃ k h' r, create_complimentary (some i) h = (ok (some k), h') ∧ Frame h h' ∧ h.colors.length ≤ k ∧ h'.colors[k]? = some r ∧
      Val.to .hsl s h.world (Color.mkHue .hsl (x + rnd 1 * (360 / rnd 2)) y z o.alpha o.space) = ok r ∧ IsColor s r ∧ r.space = o.space := by
  obtain ⟨ks, h', rs, e, f, p, l, all⟩ := combination_run hs ho (n := 2) (by norm_num) (by norm_num) hi hw hd hdc
  obtain ⟨r, a1, a2, a3, a4⟩ := all 0 (by norm_num)
  obtain ⟨r', rfl⟩ : ∃ r', rs = [r'] := List.length_eq_one_iff.mp (by omega)
  have a1 : r' = r := by simpa using a1
  subst a1
  rcases p with _ | ⟨hp, pn⟩
  rcases pn
  obtain ⟨k, rfl, hk, hk'⟩ := hp
  · refine ⟨k, h', r', ?_, f, hk, hk', by simpa using a2, a3, a4⟩
    simp only [create_complimentary, Prog.bind_def, e, List.getElem?_cons_succ, List.getElem?_cons_zero, Prog.pure_run]

/-- The split complement. -/
theorem split_run {s : ColorType} (hs : Target s) {o d r e : Color} (ho : IsColor s o) {x y z x' y' z' v : Fl} (hv0 : ¬ feq v 0) (hv1 : ¬ v > 360 / 3) {h : Heap} {i : Nat}
    (hi : h.colors[i]? = some o) (hw : Cie s → h.world.Usable o.space) (hd : Val.to s .hsl h.world o = ok d) (hdc : d.comps = [x, y, z])
    (hr : Val.to .hsl s h.world (Color.mkHue .hsl (x + rnd 1 * (360 / rnd 2)) y z o.alpha o.space) = ok r) (he : Val.to s .hsl h.world r = ok e) (hec : e.comps = [x', y', z']) :
    ∃ k1 k2 h' r1 r2, create_complimentary_split (some i) v h = (ok [some k1, some i, some k2], h') ∧ Frame h h' ∧ h.colors.length ≤ k1 ∧ h.colors.length ≤ k2 ∧
      h'.colors[k1]? = some r1 ∧ h'.colors[k2]? = some r2 ∧ Val.to .hsl s h.world (Color.mkHue .hsl (x' - v) y' z' r.alpha r.space) = ok r1 ∧
      Val.to .hsl s h.world (Color.mkHue .hsl (x' + v) y' z' r.alpha r.space) = ok r2 := by
  obtain ⟨q, h1, e1, c1⟩ := convert_run hs.1 hsl_target ho hi hd
  have f1 := c1.frame (by simp [Cie])
  obtain ⟨k, h2, r', e2, f2, l2, here2, v2, i2, s2⟩ := complement_run hs ho (f1.2 _ _ hi) (by rw [c1.world]; exact hw) (by rw [c1.world]; exact hd) hdc
  rw [c1.world, hr, ok_inj] at v2
  subst v2
  have w2 : h2.world = h.world := f2.1.trans c1.world
  obtain ⟨k1, k2, h3, r1, r2, e3, f3, l3, l3', b1, b2, b3, b4⟩ := analogous_run hs i2 hv0 hv1 here2 (by rw [w2, s2]; exact hw) (by rw [w2]; exact he) hec
  rw [w2] at b3 b4
  refine ⟨k1, k2, h3, r1, r2, ?_, (f1.trans f2).trans f3, (frame_length (f1.trans f2)).trans l3, (frame_length (f1.trans f2)).trans l3', b1, b2, b3, b4⟩
  simp only [create_complimentary_split, Prog.bind_def, e1, e2, e3, List.getElem?_cons_succ, List.getElem?_cons_zero, Prog.pure_run]

end Combine
